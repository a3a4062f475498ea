import Verif.Model.Array
import Verif.Model.Date

/-! Lists that may also be given as one text: `xmp.DateList` and `dc.LocaleArray`. -/

namespace Xmp

open GoStr

/-- models/dc/types.go:57-63 `LocaleArray.UnmarshalXMP`; `out` is the value before, `none` an error. -/
def localesUnmarshal (r : Registry) (node : Node) (out : List Str) : Option (List Str) :=
  if node.nodes.length = 0 ∧ node.value.length > 0 then some (out ++ [node.value])
  else unmarshalArray r decodeString node out

/-- models/dc/types.go:53-55 `LocaleArray.MarshalXMP`; `none` is an error. -/
def localesMarshal (x : List Str) (node : Node) : Option Node := marshalArray encodeString .unordered x node

/-- models/dc/types.go:42-47 `LocaleArray.Default`. -/
def localesDefault (x : List Str) : Str :=
  match x with
  | [] => []
  | s :: _ => s

/-- xmp/marshal.go:325-334 for a date: `MarshalText`, and nothing if there is no text. -/
def encodeDate : ElemEnc GoTime := fun t n =>
  match dateMarshal t with
  | none => some n
  | some s => some (n.setValue s)

/-- xmp/unmarshal.go:233-238 for a date: `UnmarshalText` on the text of the node. -/
def decodeDate : Node → Option GoTime := fun n => dateUnmarshal n.value

/-- xmp/xmp_types.go:226-237 `DateList.UnmarshalXMP`; `out` is the value before, `none` an error. -/
def datesUnmarshal (r : Registry) (node : Node) (out : List GoTime) : Option (List GoTime) :=
  if node.nodes.length = 0 ∧ node.value.length > 0 then
    match parseDate node.value with
    | none => none
    | some t => some (out ++ [t])
  else unmarshalArray r decodeDate node out

/-- xmp/xmp_types.go:222-224 `DateList.MarshalXMP`; `none` is an error. -/
def datesMarshal (x : List GoTime) (node : Node) : Option Node := marshalArray encodeDate .ordered x node

end Xmp
