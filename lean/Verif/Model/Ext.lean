import Verif.Model.DocXmp
import Verif.Model.Array

/-! Model of extensions, xmp/xmp_ext.go: parts of a document whose properties are only known when the document is read.
An extension is a node whose children are kept like the top-level nodes of a document (`Xmp.Root`). -/

namespace Xmp.Ext

open GoStr

/-! ### Extensions with names, as below `iXML:extension` -/

/-- The node that xmp/xmp_ext.go:183-186 writes for one extension. -/
def namedItem (v : Node) : Node :=
  let ext := (Node.new ⟨[], v.xmlName.loc⟩).addAttr rdfResourceAttr
  let ext := ext.setNodes (ext.nodes ++ v.nodes)
  ext.setAttrs (ext.attrs ++ v.attrs)

/-- xmp/xmp_ext.go:181-190 `NamedExtensionArray.MarshalXMP`.  Children are copied (`copyNodes`), which is the identity
on values. -/
def namedWrite (xs : List Node) (node : Node) : Node := xs.foldl (fun n v => n.addNode (namedItem v)) node

/-- One step of the loop xmp/xmp_ext.go:193-199. -/
def namedReadItem (d : Dec) (v : Node) : Node :=
  let v := v.translate d
  let ext := Node.new ⟨[], v.xmlName.loc⟩
  let ext := ext.setNodes (ext.nodes ++ v.nodes)
  ext.setAttrs (ext.attrs ++ v.attrs)

/-- xmp/xmp_ext.go:192-201 `NamedExtensionArray.UnmarshalXMP`; `out` are the extensions already in the list. -/
def namedRead (d : Dec) (node : Node) (out : List Node) : List Node := out ++ node.nodes.map (namedReadItem d)

/-- xmp/xmp_ext.go:169-179 `NamedExtensionArray.FindNodeByName` on extensions without models. -/
def namedFind (xs : List Node) (name : Str) : Option Node := xs.find? (fun v => v.name = name)

/-! ### Extensions that hold properties of other namespaces -/

/-- One step of the loop xmp/xmp_ext.go:51-72; `loc` is the local name of the extension, `none` is an error.  Children of
the nodes carry no models here (the decoder never creates such models). -/
def extWriteItem (loc : Str) (node : Node) (r : Root) : Option Node :=
  match (match r.model with | some m => marshalValue m.ty m.val node | none => some node) with
  | none => none
  | some node =>
    some (if loc = [] then node.setNodes (node.nodes ++ r.node.nodes) else node.setNodes (node.nodes ++ [r.node]))

/-- xmp/xmp_ext.go:50-74 `Extension.MarshalXMP`. -/
def extWrite (loc : Str) (rs : List Root) (node : Node) : Option Node := rs.foldlM (extWriteItem loc) node

/-- The loop xmp/xmp_ext.go:81-85. -/
def extAttrs (env : Env) (d : Dec) (dv : Version) : List Attr → List Root → Res (List Root)
  | [], rs => .ok rs
  | a :: as, rs =>
    match Dec.decodeAttribute env d dv rs a with
    | .ok rs => extAttrs env d dv as rs
    | .err => .err
    | .panic => .panic

/-- xmp/xmp_ext.go:95-98: the nodes after a child could not be decoded.  A top-level node that `decodeNode` created
stays, with the translated name of the child (xmp/unmarshal.go:150-155).  Translations inside of the child by the failed
decoder and values it has already stored in the model are not modelled. -/
def extRaw (env : Env) (d : Dec) (rs : List Root) (c : Node) : List Root :=
  match Dec.lookupNode env d rs c.xmlName with
  | none => rs ++ [⟨c, none⟩]
  | some (_, rs) => rs ++ [⟨.mk (d.translate c.xmlName) c.attrs c.value c.nodes, none⟩]

mutual
/-- xmp/xmp_ext.go:80-101 `Extension.UnmarshalXMP`; the list are the nodes of the extension. -/
def extRead (env : Env) (d : Dec) (dv : Version) : Node → List Root → Res (List Root)
  | .mk _ a _ l, rs =>
    match extAttrs env d dv a rs with
    | .ok rs => extNodes env d dv l rs
    | .err => .err
    | .panic => .panic
/-- The loop xmp/xmp_ext.go:87-99. -/
def extNodes (env : Env) (d : Dec) (dv : Version) : List Node → List Root → Res (List Root)
  | [], rs => .ok rs
  | c :: cs, rs =>
    if c.fullName d.reg = "rdf:Description".toList then
      match extRead env d dv c rs with
      | .ok rs => extNodes env d dv cs rs
      | .err => .err
      | .panic => .panic
    else
      match Dec.decodeNode env d dv rs c with
      | .ok rs => extNodes env d dv cs rs
      | .err => extNodes env d dv cs (extRaw env d rs c)
      | .panic => .panic
end

/-- xmp/xmp_ext.go:39-49 `Extension.FindNodeByName`: the position of the node. -/
def extFind (rs : List Root) (name : Str) : Option Nat := rs.findIdx? (XDoc.rootMatches name)

/-! ### Bags of extensions, as in `xmpMM:Pantry` -/

/-- xmp/xmp_ext.go:126-132: one `rdf:li` (extensions in a bag have no name). -/
def bagItem (x : List Root) : Option Node :=
  match extWrite [] x (Node.new rdfDescription) with
  | none => none
  | some elem => some ((Node.new ⟨[], "rdf:li".toList⟩).setNodes [elem])

/-- xmp/xmp_ext.go:119-135 `ExtensionArray.MarshalXMP`. -/
def bagWrite (xs : List (List Root)) (node : Node) : Option Node :=
  if xs.length = 0 then some node
  else
    match xs.mapM bagItem with
    | none => none
    | some lis => some (node.setNodes (node.nodes ++ [(Node.new ⟨[], "rdf:Bag".toList⟩).setNodes lis]))

/-- An error or a panic ends `UnmarshalArray`. -/
def resOption {α : Type} : Res α → Option α
  | .ok x => some x
  | _ => none

/-- xmp/xmp_ext.go:137-139 `ExtensionArray.UnmarshalXMP` (into an empty or filled list). -/
def bagRead (env : Env) (d : Dec) (dv : Version) (node : Node) (out : List (List Root)) : Option (List (List Root)) :=
  unmarshalArray d.reg (fun n => resOption (extRead env d dv n [])) node out

end Xmp.Ext
