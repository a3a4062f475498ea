import Verif.Model.Translate

/-! Names in a namespace: the methods of `xmp.Namespace` on names, and `Path.MatchNamespace`. -/

namespace Xmp

open GoStr

namespace Namespace

/-- xmp/namespace.go:118-120 `MatchAttrName`. -/
def matchAttrName (n : Namespace) (name : Str) : Bool := Xmp.getPrefix name = n.name

/-- xmp/namespace.go:122-127 `MatchXMLName`. -/
def matchXmlName (n : Namespace) (name : QName) : Bool :=
  if name.space ≠ [] then name.space = n.uri else Xmp.getPrefix name.loc = n.name

/-- xmp/namespace.go:129-134 `Expand`. -/
def expand (n : Namespace) (loc : Str) : Str := expandName n.name loc

/-- xmp/namespace.go:136-138 `Split`: the namespace itself is not looked at. -/
def split (_ : Namespace) (name : Str) : Str := stripPrefix name

/-- xmp/namespace.go:152-157 `XMLName`. -/
def xmlName (n : Namespace) (loc : Str) : QName := ⟨[], n.expand loc⟩

/-- xmp/namespace.go:159-164 `RootName`. -/
def rootName (n : Namespace) : QName := ⟨[], n.name⟩

end Namespace

/-- xmp/path.go:141-149 `MatchNamespace`; `none` is the nil pointer. -/
def Path.matchNamespace (x : Path) (ns : Option Namespace) : Bool :=
  match ns with
  | none => false
  | some ns =>
    match indexChar ':' x with
    | some i => ns.name = x.take i
    | none => false

end Xmp
