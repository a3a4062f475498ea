import Verif.Model.Media
import Verif.Model.TypedXmp

/-! The property `xmpDM:Timecode`: a struct in XMP and an object in JSON. -/

namespace Xmp.Media

open GoStr

/-- models/xmp_dm/types.go:579-587 `Timecode` with its format. -/
structure FullTimecode where
  format : Str
  tc : Timecode
deriving DecidableEq, Repr

/-- The fields with tags: of `_t` in models/xmp_dm/types.go:677-681 (`-` fields are left out by the library) and of the temporary struct
in lines 687-690. -/
def timecodeTy : Ty := .struct none [{ name := "xmpDM:timeFormat".toList }, { name := "xmpDM:timeValue".toList }] [.str, .str]

/-- models/xmp_dm/types.go:642-644 `Timecode.IsZero`. -/
def FullTimecode.isZero (x : FullTimecode) : Bool := x.tc.value = [] && x.format = []

/-- models/xmp_dm/types.go:677-681 `Timecode.MarshalXMP`; `none` is an error. -/
def FullTimecode.marshalXMP (x : FullTimecode) (node : Node) : Option Node :=
  marshalValue timecodeTy (.struct [.str x.format, .str x.tc.text]) node

/-- xmp/marshal.go:434-487 for a field that is a timecode: nothing is written for one that counts as zero. -/
def FullTimecode.writeField (x : FullTimecode) (name : QName) (parent : Node) : Option Node :=
  if x.isZero then some parent else (x.marshalXMP (Node.new name)).map parent.addNode

/-- models/xmp_dm/types.go:691-706: what follows after the two texts are read. -/
def FullTimecode.ofTexts (format value : Str) : Option FullTimecode := (Timecode.ofValue value).map (fun t => ⟨format, t⟩)

/-- models/xmp_dm/types.go:683-706 `Timecode.UnmarshalXMP`. -/
def FullTimecode.unmarshalXMP (d : Dec) (dv : Version) (node : Node) : Res FullTimecode :=
  match decodeElement d dv node timecodeTy timecodeTy.zero with
  | .ok (.struct [.str f, .str v]) => Res.ofOption (FullTimecode.ofTexts f v)
  | .ok _ => .err
  | .err => .err
  | .panic => .panic

/-- models/xmp_dm/types.go:646-650 `Timecode.MarshalJSON`: the members `Format` and `Value` of the object.  The members for the numbers,
which are not read (lines 653-656), are left out, and so is the text of the object (C68). -/
def FullTimecode.marshalJSON (x : FullTimecode) : Str × Str := (x.format, x.tc.text)

/-- models/xmp_dm/types.go:652-675 `Timecode.UnmarshalJSON` for an object with the two members. -/
def FullTimecode.unmarshalJSON (j : Str × Str) : Option FullTimecode := FullTimecode.ofTexts j.1 j.2

end Xmp.Media
