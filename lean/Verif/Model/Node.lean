import Verif.Model.Registry

/-! Model of generic XMP node trees (xmp/node.go). -/

namespace Xmp

open GoStr

/-- `encoding/xml` `Name`. -/
structure QName where
  space : Str := []
  loc : Str
deriving DecidableEq, Repr

/-- xmp/node.go:39-42 `Attr`. -/
structure Attr where
  name : QName
  value : Str
deriving DecidableEq, Repr

/-- xmp/node.go:31-37 `Node`, as a value.  The `Model` field is left out: this is the tree of a node
without a model (see `Xmp.TopNode` for nodes with models).  Child pointers are replaced by the
children, so a node can not be shared between two parents. -/
inductive Node where
  | mk (name : QName) (attrs : List Attr) (value : Str) (nodes : List Node)

namespace Node

/-- Field `XMLName`. -/
def xmlName : Node → QName | mk n _ _ _ => n
/-- Field `Attr`. -/
def attrs : Node → List Attr | mk _ a _ _ => a
/-- Field `Value`. -/
def value : Node → Str | mk _ _ v _ => v
/-- Field `Nodes`. -/
def nodes : Node → List Node | mk _ _ _ l => l

/-- Assignment to `n.Value`. -/
def setValue : Node → Str → Node | mk n a _ l, v => mk n a v l
/-- Assignment to `n.Attr`. -/
def setAttrs : Node → List Attr → Node | mk n _ v l, a => mk n a v l
/-- Assignment to `n.Nodes`. -/
def setNodes : Node → List Node → Node | mk n a v _, l => mk n a v l

/-- xmp/node.go:79-101 `NewNode`, the resulting value only (see `Xmp.Pool` for the pool). -/
def new (name : QName) : Node := mk name [] [] []

/-- xmp/node.go:198-200 `Name`. -/
def name (n : Node) : Str := stripPrefix n.xmlName.loc

/-- xmp/node.go:202-207 `FullName`. -/
def fullName (r : Registry) (n : Node) : Str :=
  if n.xmlName.space ≠ [] then r.short n.xmlName.space n.xmlName.loc else n.xmlName.loc

/-- xmp/node.go:209-215 `Namespace`. -/
def namespace_ (n : Node) : Str :=
  if n.xmlName.space = [] then getPrefix n.xmlName.loc else n.xmlName.space

end Node

/-- xmp/node.go:46-56 `AttrList.IsZero`. -/
def AttrList.isZero (x : List Attr) : Bool := x.all (fun v => v.value = [])

/-- xmp/node.go:140-148 `NodeList.AddNode`: replace the first node with an equal local name. -/
def NodeList.addNode (n : Node) : List Node → List Node
  | [] => [n]
  | x :: xs => if x.xmlName.loc = n.xmlName.loc then n :: xs else x :: NodeList.addNode n xs

/-- xmp/node.go:159-169 `FindNodeByName` on nodes without models. -/
def NodeList.findNodeByName (l : List Node) (pfx : Str) : Option Node :=
  l.find? (fun v => v.name = pfx)

/-- xmp/node.go:310-318 `AddAttr`: an existing attribute of the same local name gets the new value. -/
def AttrList.addAttr (a : Attr) : List Attr → List Attr
  | [] => [a]
  | x :: xs =>
    if x.name.loc = a.name.loc then { x with value := a.value } :: xs else x :: AttrList.addAttr a xs

namespace Node

/-- xmp/node.go:255-260 `AddNode`.  The panic for adding a node to itself needs pointer identity and
is not modelled. -/
def addNode (n x : Node) : Node := n.setNodes (NodeList.addNode x n.nodes)

/-- xmp/node.go:263-268 `AppendNode`. -/
def appendNode (n x : Node) : Node := n.setNodes (n.nodes ++ [x])

/-- xmp/node.go:310-318 `AddAttr`. -/
def addAttr (n : Node) (a : Attr) : Node := n.setAttrs (AttrList.addAttr a n.attrs)

/-- xmp/node.go:321-323 `AddStringAttr`. -/
def addStringAttr (n : Node) (name value : Str) : Node := n.addAttr ⟨⟨[], name⟩, value⟩

/-- xmp/node.go:325-337 `GetAttr`. -/
def getAttr (n : Node) (ns name : Str) : List Attr :=
  n.attrs.filter (fun v =>
    !(decide (ns ≠ []) && decide (v.name.space ≠ ns)) &&
    !(decide (name ≠ []) && decide (stripPrefix v.name.loc ≠ name)))

mutual
/-- xmp/node.go:187-196 `IsZero` on nodes without models. -/
def isZero : Node → Bool
  | mk _ a v l => decide (v = []) && AttrList.isZero a && isZeroList l
/-- The loop of xmp/node.go:192-194. -/
def isZeroList : List Node → Bool
  | [] => true
  | x :: xs => x.isZero && isZeroList xs
end

/-- xmp/node.go:284-294 `IsArray`. -/
def isArray (r : Registry) (n : Node) : Bool :=
  match n.nodes with
  | [x] => decide (x.fullName r ∈ ["rdf:Seq".toList, "rdf:Bag".toList, "rdf:Alt".toList])
  | _ => false

/-- xmp/node.go:296-308 `ArrayType`. -/
def arrayType (r : Registry) (n : Node) : Str :=
  match n.nodes with
  | [x] =>
    if x.fullName r = "rdf:Seq".toList then "Seq".toList
    else if x.fullName r = "rdf:Bag".toList then "Bag".toList
    else if x.fullName r = "rdf:Alt".toList then "Alt".toList
    else []
  | _ => []

end Node
end Xmp
