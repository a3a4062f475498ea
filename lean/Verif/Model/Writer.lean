import Verif.Model.GoStr

/-! Model of the size limited writer and of the packet output of xmp/marshal.go. -/

namespace Xmp

open GoStr

/-- Errors of a write: the size limit (`ErrOverflow`, xmp/marshal.go:54) or an error of the underlying
writer. -/
inductive WriteErr where
  | overflow
  | sink
deriving DecidableEq, Repr

/-- The underlying `io.Writer`: what it received so far and how much more it takes (`none` is no bound)
before it fails.  Other ways to fail are not modelled. -/
structure Sink where
  out : Str := []
  room : Option Nat := none
deriving DecidableEq, Repr

/-- `io.Writer.Write`: the bytes taken and whether all were taken. -/
def Sink.write (s : Sink) (b : Str) : Nat × Bool × Sink :=
  match s.room with
  | none => (b.length, true, { s with out := s.out ++ b })
  | some k =>
    if b.length ≤ k then (b.length, true, ⟨s.out ++ b, some (k - b.length)⟩)
    else (k, false, ⟨s.out ++ b.take k, some 0⟩)

/-- xmp/marshal.go:56-60 `countWriter`. -/
structure CountWriter where
  n : Int := 0
  limit : Int := 0
  w : Sink := {}
deriving DecidableEq, Repr

/-- xmp/marshal.go:62-67 `min`. -/
def minI64 (a b : Int) : Int := if a < b then a else b

/-- xmp/marshal.go:73-93 `countWriter.Write`: bytes taken, error, new state.  `io.CopyN` from a byte
reader passes the first `min` bytes on, in pieces whose size does not matter for the sink.  The counter
does not overflow: it never exceeds the number of bytes written. -/
def CountWriter.write (w : CountWriter) (b : Str) : Nat × Option WriteErr × CountWriter :=
  if w.limit > 0 then
    if w.n ≥ w.limit then (0, some .overflow, w)
    else
      let r := w.w.write (b.take (minI64 (w.limit - w.n) b.length).toNat)
      let w' := { w with n := w.n + r.1, w := r.2.2 }
      if r.2.1 = false then (r.1, some .sink, w')
      else if r.1 < b.length then (r.1, some .overflow, w')
      else (r.1, none, w')
  else
    let r := w.w.write b
    (r.1, if r.2.1 then none else some .sink, { w with n := w.n + r.1, w := r.2.2 })

/-- A sequence of writes that stops at the first error, as all callers do (the XML encoder writes through
a `bufio.Writer`, whose errors are sticky). -/
def CountWriter.writeAll (w : CountWriter) : List Str → Option WriteErr × CountWriter
  | [] => (none, w)
  | b :: bs =>
    match w.write b with
    | (_, some e, w') => (some e, w')
    | (_, none, w') => w'.writeAll bs

/-- xmp/sdk.go:48. -/
def packetHeader : Str := "<?xpacket begin=\"\" id=\"W5M0MpCehiHzreSzNTczkc9d\"?>\n".toList
/-- xmp/sdk.go:49. -/
def packetFooter : Str := "\n<?xpacket end=\"w\"?>".toList

/-- xmp/marshal.go:38 `Xpacket` (bit 0; only tests of single bits occur). -/
def xpacket : Nat := 1
/-- xmp/marshal.go:39 `Xpadding`. -/
def xpadding : Nat := 2

/-- xmp/marshal.go:255-265: byte `i` of the padding. -/
def padByte (i : Nat) : Str := if i % 80 = 0 then ['\n'] else [' ']

/-- xmp/marshal.go:214-272, the output part of `Encode`: header, document, padding, footer.  `body` are
the pieces in which the XML encoder writes the document (lines 222-249). -/
def encodeOut (flags : Nat) (body : List Str) (w : CountWriter) : Option WriteErr × CountWriter :=
  let packet := flags &&& xpacket ≠ 0
  let h := if packet then w.writeAll [packetHeader] else (none, w)
  match h with
  | (some e, w1) => (some e, w1)
  | (none, w1) =>
    match w1.writeAll body with
    | (some e, w2) => (some e, w2)
    | (none, w2) =>
      if packet then
        let pad := w2.limit - w2.n - 20
        let p :=
          if flags &&& xpadding ≠ 0 ∧ w2.limit > 0 then
            w2.writeAll ((List.range pad.toNat).map padByte)
          else (none, w2)
        match p with
        | (some e, w3) => (some e, w3)
        | (none, w3) => w3.writeAll [packetFooter]
      else (none, w2)

end Xmp
