import Verif.Model.Node

/-! What writing a node tree as XML and parsing it again does to the tree.  The XML encoder and decoder
are those of Go's `encoding/xml`, which is not part of the project; only their effect on names, values
and attributes is described here, as far as xmp/node.go:339-390 (`MarshalXML`, `UnmarshalXML`) uses
them. -/

namespace Xmp

open GoStr

/-- A name written as `prefix:local` is read with the URI bound to the prefix as its space
(`encoding/xml`); `uri` is the prefix binding in scope. -/
def reparseName (uri : Str → Str) (n : QName) : QName :=
  match indexChar ':' n.loc with
  | some i => ⟨uri (n.loc.take i), n.loc.drop (i + 1)⟩
  | none => n

namespace Node

mutual
/-- xmp/node.go:339-365 `MarshalXML` followed by 367-390 `UnmarshalXML`: names are resolved, the text of
a node is trimmed (line 377), children and attributes keep their order.  Only trees in which every
name has the form `prefix:local` are meant; declarations of prefixes are not part of the tree. -/
def reparse (uri : Str → Str) : Node → Node
  | mk n a v l =>
    mk (reparseName uri n) (a.map (fun x => { x with name := reparseName uri x.name })) (trimSpace v)
      (reparseList uri l)
/-- `reparse` on every child. -/
def reparseList (uri : Str → Str) : List Node → List Node
  | [] => []
  | x :: xs => x.reparse uri :: reparseList uri xs
end

end Node
end Xmp
