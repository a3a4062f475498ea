import Verif.Model.Node

/-! Model of tag lists, xmp/native.go:25-63. -/

namespace Xmp

open GoStr

/-- xmp/native.go:25-29 `Tag`. -/
structure Tag where
  key : Str
  value : Str
  lang : Str
deriving DecidableEq, Repr

/-- xmp/native.go:38-41: the attribute name of a tag. -/
def Tag.attrName (t : Tag) : Str := if t.lang ≠ [] then t.key ++ '-' :: t.lang else t.key

/-- xmp/native.go:33-48 `TagList.MarshalXMP`. -/
def TagList.marshalXMP (x : List Tag) (node : Node) : Node :=
  x.foldl (fun n v => n.addAttr ⟨⟨[], v.attrName⟩, v.value⟩) node

/-- xmp/native.go:52-59: the tag of an attribute. -/
def Tag.ofAttr (v : Attr) : Tag :=
  match indexChar '-' v.name.loc with
  | some i => ⟨v.name.loc.take i, v.value, v.name.loc.drop (i + 1)⟩
  | none => ⟨v.name.loc, v.value, []⟩

/-- xmp/native.go:50-63 `TagList.UnmarshalXMP`. -/
def TagList.unmarshalXMP (x : List Tag) (node : Node) : List Tag := x ++ node.attrs.map Tag.ofAttr

end Xmp
