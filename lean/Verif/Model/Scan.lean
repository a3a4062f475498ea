import Verif.Model.Reader
import Verif.Model.XmlBytes
import Verif.Model.DocXmp

/-! Model of reading documents from bytes: xmp/unmarshal.go:59-62 and 73-110, xmp/reader.go:23-42. -/

namespace Xmp.XmlBytes

open GoStr

/-- xmp/unmarshal.go:59-62 `Unmarshal` and xmp/reader.go:23-30 `Read`: parse the text (line 81), then decode the tree.
`dv` is the version of the decoder, `uni` decides for names with characters outside of ASCII. -/
def unmarshalText (uni : Str → Bool) (env : Env) (dv : Version) (s : Str) : Res Packet :=
  match parse uni s with
  | none => .err
  | some x =>
    match Xml.read Xml.baseScope x with
    | [t] => Dec.decode env dv t
    | _ => .err

/-- xmp/reader.go:32-42 `Scan`: the first packet of a stream, which arrives in the given reads. -/
def scanDoc (uni : Str → Bool) (env : Env) (dv : Version) (reads : List Str) : Res Packet :=
  match scanPackets reads with
  | .panic => .panic
  | .tooLong => .err
  | .ok [] => .err
  | .ok (p :: _) => unmarshalText uni env dv p

end Xmp.XmlBytes
