import Verif.Model.Scan
import Verif.Model.Writer
import Verif.Model.XmlBytes
import Verif.Model.ListPaths

/-! Model of the command `xmpinfo`: cmd/xmpinfo.go.

The flags are given parsed.  Texts of error messages are not modelled, nor is `-debug`, which adds messages.  Reading a file that
can be opened does not fail.  The hooks `SyncToXMP` and `SyncFromXMP` of models are taken to do nothing. -/

namespace Xmp.Info

open GoStr XmlBytes

/-- cmd/xmpinfo.go:32-50: the flags. -/
structure Opts where
  quiet : Bool := false
  json : Bool := false
  xmp : Bool := false
  path : Bool := false
  orig : Bool := false
  all : Bool := false
deriving DecidableEq, Repr

/-- What is printed: a text, or the message of `fail`. -/
inductive Line where
  | text (s : Str)
  | error
deriving DecidableEq, Repr

/-- How the command ends: exit code 0, exit code 1 or a panic. -/
inductive Status where
  | ok
  | failed
  | panic
deriving DecidableEq, Repr

/-- A run of the command. -/
structure Run where
  lines : List Line
  status : Status
deriving DecidableEq, Repr

/-- cmd/xmpinfo.go:52-55 `fail`. -/
def fail : Run := ⟨[.error], .failed⟩

/-- One thing is done after the other; `fail` and panics end the command. -/
def Run.andThen (r r' : Run) : Run :=
  match r.status with
  | .ok => ⟨r.lines ++ r'.lines, r'.status⟩
  | _ => r

/-- cmd/xmpinfo.go:57-62 `out`. -/
def out (o : Opts) (b : Str) : Run := ⟨if o.quiet then [] else [.text (b ++ ['\n'])], .ok⟩

/-- `filepath.Ext` (Unix): the end of the name from the last dot on, if no slash follows. -/
def extOf (name : Str) : Str :=
  match (name.reverse.takeWhile (· ≠ '/')).span (· ≠ '.') with
  | (_, []) => []
  | (e, _ :: _) => '.' :: e.reverse

/-- The world of a run: `uni` decides for names with characters outside of ASCII, `order` is the order of the namespace maps,
`sort` sorts listings, `json` is `json.MarshalIndent`, without result if it fails. -/
structure World where
  uni : Str → Bool
  env : Env
  order : Node → List Namespace → List Namespace
  sort : PathValueList → PathValueList
  json : Packet → Option Str

/-- cmd/xmpinfo.go:64-70 `marshal`, with xmp/marshal.go:95-106 and 128-136: packets, no size limit, an indentation of two
blanks. -/
def marshal (w : World) (p : Packet) : Option Str :=
  match Enc.encode w.env w.order p with
  | none => none
  | some t =>
    match encodeOut xpacket [printTree (some ([], "  ".toList)) t] {} with
    | (none, cw) => some cw.w.out
    | (some _, _) => none

/-- What is read: nothing, in which case a document is made (cmd/xmpinfo.go:126-153), or the file of a name; `none` if it cannot
be opened, else the reads in which it arrives. -/
inductive Source where
  | demo (p : Packet)
  | file (name : Str) (reads : Option (List Str))

/-- A line of the listing, cmd/xmpinfo.go:178-180. -/
def pathLine (v : PathValue) : Line := .text (v.path ++ " = ".toList ++ v.value ++ ['\n'])

/-- cmd/xmpinfo.go:161-181: the outputs of a document. -/
def showDoc (w : World) (o : Opts) (p : Packet) : Run :=
  let j : Run := if o.json then (match w.json p with | some b => out o b | none => fail) else ⟨[], .ok⟩
  let x : Run := if o.xmp then (match marshal w p with | some b => out o b | none => fail) else ⟨[], .ok⟩
  let l : Run :=
    if o.path then
      match p.doc.listPaths w.env w.sort with
      | .ok l => ⟨l.map pathLine, .ok⟩
      | .err => fail
      | .panic => ⟨[], .panic⟩
    else ⟨[], .ok⟩
  j.andThen (x.andThen l)

/-- cmd/xmpinfo.go:72-78, 155-181: the outputs for the bytes of a packet. -/
def showBytes (w : World) (o : Opts) (b : Str) : Run :=
  let first : Run := if o.orig then out o b else ⟨[], .ok⟩
  first.andThen (match unmarshalText w.uni w.env Version.zero b with
    | .ok p => showDoc w o p
    | .err => fail
    | .panic => ⟨[], .panic⟩)

/-- cmd/xmpinfo.go:87-90: without other flags the original is printed. -/
def Opts.effective (o : Opts) : Opts :=
  if !o.json && !o.xmp && !o.path && !o.orig && !o.quiet then { o with orig := true } else o

/-- cmd/xmpinfo.go:80-188 `main`. -/
def run (w : World) (o0 : Opts) (src : Source) : Run :=
  let o := o0.effective
  match src with
  | .demo p =>
    match marshal w p with
    | some b => showBytes w o b
    | none => fail
  | .file _ none => fail
  | .file name (some reads) =>
    if extOf name = ".xmp".toList then showBytes w o reads.flatten
    else
      match scanPackets reads with
      | .panic => ⟨[], .panic⟩
      | .tooLong => fail
      | .ok [] => ⟨[], .ok⟩
      | .ok (b :: bs) =>
        if o.orig && o.all then (b :: bs).foldr (fun b r => (out o b).andThen r) ⟨[], .ok⟩
        else showBytes w o b

end Xmp.Info
