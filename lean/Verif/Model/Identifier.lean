import Verif.Model.TypedXmp
import Verif.Model.Xml

/-! Model of identifiers and thumbnails, models/xmp_base/types.go:51-187. -/

namespace Xmp

open GoStr

/-- models/xmp_base/types.go:51-54 `Identifier`. -/
structure Identifier where
  id : Str := []
  scheme : Str := []
deriving DecidableEq, Repr

namespace Identifier

/-- The struct type of models/xmp_base/types.go:60-63 and 73-76. -/
def ty : Ty := .struct none [{ name := "rdf:value".toList }, { name := "xmpidq:Scheme".toList }] [.str, .str]

/-- Its value. -/
def val (x : Identifier) : Val := .struct [.str x.id, .str x.scheme]

/-- The strings of a struct value. -/
def ofVal : Val → Identifier
  | .struct [.str i, .str s] => ⟨i, s⟩
  | _ => {}

/-- models/xmp_base/types.go:56-70 `MarshalXMP`; `none` is an error. -/
def marshalXMP (x : Identifier) (node : Node) : Option Node :=
  if x.scheme = [] then marshalValue .str (.str x.id) node else marshalValue ty x.val node

/-- Read the struct from a node (`DecodeElement(&id, node)`). -/
def decodeStruct (d : Dec) (dv : Version) (node : Node) (x : Identifier) : Res Identifier :=
  match decodeElement d dv node ty x.val with
  | .ok v => .ok (ofVal v)
  | .err => .err
  | .panic => .panic

/-- Read the value only (`DecodeElement(&id.ID, node)`). -/
def decodeId (d : Dec) (dv : Version) (node : Node) (x : Identifier) : Res Identifier :=
  match decodeElement d dv node .str (.str x.id) with
  | .ok (.str i) => .ok { x with id := i }
  | .ok _ => .err
  | .err => .err
  | .panic => .panic

/-- models/xmp_base/types.go:72-96 `UnmarshalXMP` on `x`.  The error of line 85 is overwritten by line 86; reading a string
gives none. -/
def unmarshalXMP (d : Dec) (dv : Version) (x : Identifier) (node : Node) : Res Identifier :=
  match node.nodes, node.attrs with
  | [], [] => decodeId d dv node x
  | [], _ :: _ =>
    match decodeId d dv node x with
    | .ok y => decodeStruct d dv node y
    | r => r
  | c :: _, _ => decodeStruct d dv c x

/-- models/xmp_base/types.go:98-106 `MarshalText`. -/
def text (x : Identifier) : Str := (if x.scheme ≠ [] then x.scheme ++ [':'] else []) ++ x.id

/-- models/xmp_base/types.go:108-111 `UnmarshalText`. -/
def ofText (x : Identifier) (data : Str) : Identifier := { x with id := data }

end Identifier

/-- models/xmp_base/types.go:113-154 `IdentifierArray`. -/
abbrev IdentifierArray := List Identifier

namespace IdentifierArray

/-- models/xmp_base/types.go:139-146 `Index`; `none` is -1. -/
def index (x : IdentifierArray) (v : Str) : Option Nat := x.findIdx? (fun y => y.id = v)

/-- models/xmp_base/types.go:135-137 `Contains`. -/
def contains (x : IdentifierArray) (v : Str) : Bool := (x.index v).isSome

/-- models/xmp_base/types.go:131-133 `Add`. -/
def add (x : IdentifierArray) (v : Str) : IdentifierArray := x ++ [{ id := v }]

/-- models/xmp_base/types.go:124-129 `AddUnique`. -/
def addUnique (x : IdentifierArray) (v : Str) : IdentifierArray := if !x.contains v then x.add v else x

/-- models/xmp_base/types.go:148-152 `Remove`: the second slice is `(*x)[:idx+1]`. -/
def remove (x : IdentifierArray) (v : Str) : IdentifierArray :=
  match x.index v with
  | some idx => x.take idx ++ x.take (idx + 1)
  | none => x

end IdentifierArray

/-- models/xmp_base/types.go:169-174 `Thumbnail`: the fields in the order of the code (`Format`, `Width`, `Height`, `Image`),
with their tags. -/
def thumbnailTy : Ty :=
  .struct none [{ name := "xmpGImg:format".toList }, { name := "xmpGImg:height".toList }, { name := "xmpGImg:width".toList },
    { name := "xmpGImg:image".toList }] [.str, .int 64, .int 64, .bytes]

/-- A value of `Thumbnail`. -/
def thumbnailVal (format : Str) (width height : Int) (image : Str) : Val :=
  .struct [.str format, .int width, .int height, .bytes image]

end Xmp
