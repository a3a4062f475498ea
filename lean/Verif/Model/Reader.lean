import Verif.Model.GoStr

/-! Model of packet scanning (xmp/reader.go) on top of Go's `bufio.Scanner`. -/

namespace Xmp

open GoStr

/-- xmp/reader.go:65 `packet_start`. -/
def packetStart : Str := "<?xpacket begin".toList
/-- xmp/reader.go:66 `packet_end`. -/
def packetEnd : Str := "<?xpacket end".toList
/-- xmp/reader.go:67 `magic`. -/
def packetMagic : Str := "W5M0MpCehiHzreSzNTczkc9d".toList

/-- xmp/reader.go:69-71 `isXmpPacket`.  The slice expression `b[:51]` panics if the capacity of `b` is
below 51 (see `drain`).  For a shorter `b` with larger capacity it includes bytes behind `b`; the
theorem `Props.short_token_rejected` shows that they never matter, so they are left out here. -/
def isXmpPacket (b : Str) : Bool := (index packetMagic (b.take 51)).isSome

/-- xmp/reader.go:73-91 `splitPacket`: bytes to skip, and the token with its offset in the data. -/
def splitPacket (data : Str) (atEOF : Bool) : Nat × Option (Nat × Str) :=
  match index packetStart data with
  | none => if data.length > packetStart.length then (data.length - packetStart.length, none) else (data.length, none)
  | some start =>
    match index packetEnd (data.drop start) with
    | none => if atEOF then (data.length, none) else (0, none)
    | some e =>
      let last := start + e + packetEnd.length + 6
      if last > data.length then (if atEOF then (data.length, none) else (0, none))
      else (last, some (start, (data.drop start).take (last - start)))

/-- State of the `bufio.Scanner`: length of its buffer, offset of the unread data in it, and that data. -/
structure ScanState where
  bufLen : Nat := 0
  start : Nat := 0
  data : Str := []

/-- `bufio.Scanner.Scan` called until it needs more input, and the loop body of xmp/reader.go:48-55: the
accepted packets and the state, `none` for a panic of `isXmpPacket`.  The first argument bounds the
number of tokens.  (With no unread data the scanner does not call the split function; the call on the
empty string made here has no effect.) -/
def drain (atEOF : Bool) : Nat → ScanState → Option (List Str × ScanState)
  | 0, st => some ([], st)
  | f + 1, st =>
    match splitPacket st.data atEOF with
    | (adv, none) => some ([], { st with start := st.start + adv, data := st.data.drop adv })
    | (adv, some (off, tok)) =>
      if st.bufLen - (st.start + off) < 51 then none
      else
        match drain atEOF f { st with start := st.start + adv, data := st.data.drop adv } with
        | none => none
        | some (l, st') => some (if isXmpPacket tok then tok :: l else l, st')

/-- `bufio.MaxScanTokenSize`. -/
def maxTokenSize : Nat := 65536

/-- `bufio.Scanner.Scan` before a read: move the data to the front of the buffer, or grow the buffer
(4096 bytes at first, then doubling up to the maximum); `none` is `bufio.ErrTooLong`.  After Go 1.17. -/
def prepareRead (st : ScanState) : Option ScanState :=
  let full := st.start + st.data.length = st.bufLen
  let st := if st.start > 0 ∧ (full ∨ st.start > st.bufLen / 2) then { st with start := 0 } else st
  if st.start + st.data.length = st.bufLen then
    if st.bufLen ≥ maxTokenSize then none
    else
      let size := if st.bufLen * 2 = 0 then 4096 else st.bufLen * 2
      some { st with start := 0, bufLen := if size > maxTokenSize then maxTokenSize else size }
  else some st

/-- Result of scanning: the packets, or a failure. -/
inductive ScanOut where
  | ok (packets : List Str)
  | tooLong
  | panic
deriving DecidableEq

/-- xmp/reader.go:44-63 `ScanPackets` with the reads made by the scanner: `chunks` are the pieces
delivered by the reader, followed by end of file.  (A reader can not deliver more than the free space of
the buffer, see `Deliverable`.  Read errors are not modelled.) -/
def scanChunks : ScanState → List Str → ScanOut
  | st, [] =>
    match drain true (st.data.length + 1) st with
    | none => .panic
    | some (l, _) => .ok l
  | st, c :: cs =>
    match drain false (st.data.length + 1) st with
    | none => .panic
    | some (l, st1) =>
      match prepareRead st1 with
      | none => .tooLong
      | some st2 =>
        match scanChunks { st2 with data := st2.data ++ c } cs with
        | .ok m => .ok (l ++ m)
        | r => r

/-- The pieces a reader can deliver: non-empty and fitting into the free space of the buffer. -/
def Deliverable : ScanState → List Str → Bool
  | _, [] => true
  | st, c :: cs =>
    match drain false (st.data.length + 1) st with
    | none => true
    | some (_, st1) =>
      match prepareRead st1 with
      | none => true
      | some st2 =>
        decide (c ≠ [] ∧ st2.start + st2.data.length + c.length ≤ st2.bufLen) &&
          Deliverable { st2 with data := st2.data ++ c } cs

/-- xmp/reader.go:44-63 `ScanPackets`; an empty list stands for the error `io.EOF`. -/
def scanPackets (chunks : List Str) : ScanOut := scanChunks {} chunks

end Xmp
