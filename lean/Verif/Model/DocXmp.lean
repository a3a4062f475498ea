import Verif.Model.DocPath
import Verif.Model.TypedXmp
import Verif.Model.XmlText

/-! Model of writing a document as XMP (xmp/marshal.go:139-274, 380-487 with wrapper nodes) and of reading it
(xmp/unmarshal.go:71-217, 448-472).

The hooks `SyncToXMP` and `SyncFromXMP` of models are taken to do nothing, the packet wrapper and padding are those of
`Model/Packet.lean`. -/

namespace Xmp

open GoStr

/-- xmp/document.go:22-39 `Document` with all its fields. -/
structure Packet where
  doc : XDoc := {}
  about : Str := []
  toolkit : Str := []

/-- xmp/sdk.go:33 `nsXML`. -/
def nsXML : Namespace := ⟨"xml".toList, "http://www.w3.org/XML/1998/namespace".toList, none⟩
/-- xmp/sdk.go:34 `nsRDF`. -/
def nsRDF : Namespace := ⟨"rdf".toList, "http://www.w3.org/1999/02/22-rdf-syntax-ns#".toList, none⟩
/-- xmp/sdk.go:32 `nsX`. -/
def nsX : Namespace := ⟨"x".toList, "adobe:ns:meta/".toList, none⟩

/-- xmp/namespace.go:148-150 `GetAttr`. -/
def Namespace.attr (ns : Namespace) : Attr := ⟨⟨[], "xmlns:".toList ++ ns.name⟩, ns.uri⟩

/-! ### Writing -/

namespace Enc

/-- xmp/marshal.go:651-662 `findNs` of the encoder, whose maps are those of the document. -/
def findNs (env : Env) (d : XDoc) (n : QName) : Option Namespace :=
  match (if n.space ≠ [] then (d.intNs.get n.space).or (d.extNs.get n.space) else none) with
  | some ns => some ns
  | none => d.findNsByPrefix env (getPrefix n.loc)

/-- xmp/marshal.go:410-425, 463-478: change the wrapper node of a namespace, which is created if it does not exist;
`none` is an error. -/
def inWrapper (ns : Namespace) (f : Node → Option Node) (ws : List Node) : Option (List Node) :=
  match ws.findIdx? (fun w => w.name = ns.name) with
  | some i =>
    match ws[i]? with
    | some w => (f w).map (ws.set i)
    | none => none
  | none => (f (Node.new ⟨[], expandName ns.name []⟩)).map (fun w => NodeList.addNode w ws)

/-- The loop xmp/marshal.go:381-431 with wrapper nodes. -/
def attrs (env : Env) (d : XDoc) : List FieldInfo → List Ty → List Val → List Node → Option (List Node)
  | f :: fs, t :: ts, v :: vs, ws =>
    if f.attr && fieldWritten f t v then
      match findNs env d ⟨[], f.name⟩ with
      | none => none
      | some ns =>
        match inWrapper ns (marshalAttr f t v) ws with
        | none => none
        | some ws => attrs env d fs ts vs ws
    else attrs env d fs ts vs ws
  | _, _, _, ws => some ws

/-- The loop xmp/marshal.go:434-487 with wrapper nodes. -/
def fields (env : Env) (d : XDoc) : List FieldInfo → List Ty → List Val → List Node → Option (List Node)
  | f :: fs, t :: ts, v :: vs, ws =>
    if !f.attr && fieldWritten f t v then
      match findNs env d ⟨[], f.name⟩ with
      | none => none
      | some ns =>
        match inWrapper ns (fun w => (marshalValue t v (Node.new ⟨[], f.name⟩)).map w.addNode) ws with
        | none => none
        | some ws => fields env d fs ts vs ws
    else fields env d fs ts vs ws
  | _, _, _, ws => some ws

/-- xmp/marshal.go:162-166: the model of a top-level node.  Models are structs.  The attribute that line 491 adds to the
root of the tree is overwritten (line 229). -/
def model (env : Env) (d : XDoc) (m : Mdl) (ws : List Node) : Option (List Node) :=
  match m.ty, m.val with
  | .struct _ infos tys, .struct vals =>
    match attrs env d infos tys vals ws with
    | none => none
    | some ws => fields env d infos tys vals ws
  | _, _ => none

/-- xmp/marshal.go:170-184: nodes and attributes outside of the model. -/
def external (env : Env) (d : XDoc) (n : Node) (ws : List Node) : Option (List Node) :=
  match findNs env d n.xmlName with
  | none => none
  | some ns =>
    match ws.findIdx? (fun w => w.name = ns.name) with
    | some i => some (ws.modify i (fun w => (w.setNodes (w.nodes ++ n.nodes)).setAttrs (w.attrs ++ n.attrs)))
    | none => some (NodeList.addNode (.mk n.xmlName n.attrs [] n.nodes) ws)

/-- The loop xmp/marshal.go:159-185 from a list of wrapper nodes. -/
def roots (env : Env) (d : XDoc) : List Root → List Node → Option (List Node)
  | [], ws => some ws
  | r :: rs, ws =>
    match (match r.model with | some m => model env d m ws | none => some ws) with
    | none => none
    | some ws =>
      match external env d r.node ws with
      | none => none
      | some ws => roots env d rs ws

/-- The prefixes of a node and its attributes, xmp/node.go:218-235 (the set `m`; iteration order is unspecified). -/
def prefixes (name : QName) (attrs : List Attr) : List Str :=
  (if name.space = [] then getPrefix name.loc else name.space) :: attrs.map (fun a => getPrefix a.name.loc)

mutual
/-- xmp/node.go:217-253 `Namespaces` of a node without model.  The empty name of line 221 finds no namespace. -/
def namespaces (env : Env) (d : XDoc) : Node → List Namespace
  | .mk n a _ l =>
    NamespaceList.removeDups (namespacesAll env d l ++
      ((prefixes n a).filterMap (d.findNsByPrefix env)).filter (fun ns => ns ≠ nsRDF ∧ ns ≠ nsXML))
/-- The loop xmp/node.go:239-241. -/
def namespacesAll (env : Env) (d : XDoc) : List Node → List Namespace
  | [] => []
  | x :: xs => namespaces env d x ++ namespacesAll env d xs
end

/-- xmp/marshal.go:188-201: a wrapper node becomes a `rdf:Description`.  `order` stands for the order in which the map of
xmp/node.go:218 is visited: a rearrangement of the namespaces. -/
def describe (env : Env) (order : Node → List Namespace → List Namespace) (d : XDoc) (about : Str) (w : Node) : Node :=
  .mk rdfDescription
    ((order w (namespaces env d w)).map Namespace.attr ++ [⟨⟨[], "rdf:about".toList⟩, about⟩] ++ w.attrs) w.value w.nodes

/-- xmp/marshal.go:206-209: which descriptions are written. -/
def kept (n : Node) : Bool := !(decide (n.attrs.length ≤ 2) && n.nodes.isEmpty)

/-- xmp/sdk.go:23. -/
def toolkitVersion : Str := "Go XMP SDK 1.0".toList

/-- xmp/marshal.go:222-246: the tree that is written. -/
def tree (toolkit : Str) (l : List Node) : Node :=
  .mk ⟨[], "x:xmpmeta".toList⟩
    [⟨⟨[], "xmlns:x".toList⟩, "adobe:ns:meta/".toList⟩,
     ⟨⟨[], "x:xmptk".toList⟩, if toolkit = [] then toolkitVersion else toolkit⟩] []
    [.mk ⟨[], "rdf:RDF".toList⟩ [nsRDF.attr] [] l]

/-- xmp/marshal.go:139-246 `Encode`, up to the text of the tree; `none` is an error. -/
def encode (env : Env) (order : Node → List Namespace → List Namespace) (p : Packet) : Option Node :=
  match roots env p.doc p.doc.roots [] with
  | none => none
  | some ws => some (tree p.toolkit ((ws.map (describe env order p.doc p.about)).filter kept))

end Enc

/-! ### Reading -/

namespace Dec

/-- xmp/unmarshal.go:448-472 `lookupNode`: the position of the top-level node and the nodes; `none` is an error. -/
def lookupNode (env : Env) (d : Dec) (rs : List Root) (name : QName) : Option (Nat × List Root) :=
  match d.findNs name with
  | none => none
  | some ns =>
    match rs.findIdx? (XDoc.rootMatches ns.name) with
    | some i => some (i, rs)
    | none =>
      match env.newModel ns with
      | none => some (rs.length, rs ++ [⟨Node.new ⟨[], expandName ns.name []⟩, none⟩])
      | some m =>
        match m.nss with
        | [] => none
        | ns0 :: _ => some (rs.length, rs ++ [⟨Node.new ⟨[], expandName ns0.name []⟩, some m⟩])

/-- What the value of a field becomes (`unmarshal` or `unmarshalAttr` into the field that was found). -/
def setField (rs : List Root) (i : Nat) (m : Mdl) (tys : List Ty) (vals : List Val) (k : Nat)
    (read : Ty → Val → Res Val) : Res (List Root) :=
  match tys[k]?, vals[k]? with
  | some t, some v =>
    match read t v with
    | .ok x => .ok (rs.modify i (fun r => { r with model := some { m with val := .struct (vals.set k x) } }))
    | .err => .err
    | .panic => .panic
  | _, _ => .panic

/-- xmp/unmarshal.go:182-217 `decodeAttribute`. -/
def decodeAttribute (env : Env) (d : Dec) (dv : Version) (rs : List Root) (a : Attr) : Res (List Root) :=
  let name := d.translate a.name
  if skipName name then .ok rs
  else
    match lookupNode env d rs name with
    | none => .err
    | some (i, rs) =>
      let store := if a.value ≠ [] then .ok (rs.modify i (fun r => { r with node := r.node.addAttr ⟨name, a.value⟩ }))
        else .ok rs
      match (rs[i]?).bind (·.model) with
      | none => store
      | some m =>
        match m.ty, m.val with
        | .struct _ infos tys, .struct vals =>
          match findStructField dv infos name.loc with
          | some k => setField rs i m tys vals k (fun t v => unmarshalAttr t v a.value)
          | none => store
        | _, _ => .panic

/-- xmp/unmarshal.go:148-180 `decodeNode`. -/
def decodeNode (env : Env) (d : Dec) (dv : Version) (rs : List Root) (n : Node) : Res (List Root) :=
  match lookupNode env d rs n.xmlName with
  | none => .err
  | some (i, rs) =>
    let name := d.translate n.xmlName
    let store := if (n.translate d).isZero then .ok rs
      else .ok (rs.modify i (fun r => { r with node := r.node.addNode (n.translate d) }))
    match (rs[i]?).bind (·.model) with
    | none => store
    | some m =>
      match m.ty, m.val with
      | .struct _ infos tys, .struct vals =>
        match findStructField dv infos (fullNameOf d.reg name) with
        | some k => setField rs i m tys vals k (fun t v => unmarshal d dv n true t v)
        | none => store
      | _, _ => .panic

/-- The loop xmp/unmarshal.go:119-131; the pair is `d.about` and the nodes. -/
def decodeAttributes (env : Env) (d : Dec) (dv : Version) : List Attr → Str × List Root → Res (Str × List Root)
  | [], s => .ok s
  | a :: as, (about, rs) =>
    if a.name.space = nsRDF.uri then
      decodeAttributes env d dv as (if a.name.loc = "about".toList then a.value else about, rs)
    else
      match decodeAttribute env d dv rs a with
      | .ok rs => decodeAttributes env d dv as (about, rs)
      | .err => .err
      | .panic => .panic

/-- The loop xmp/unmarshal.go:134-138. -/
def decodeNodes (env : Env) (d : Dec) (dv : Version) : List Node → List Root → Res (List Root)
  | [], rs => .ok rs
  | n :: ns, rs =>
    match decodeNode env d dv rs n with
    | .ok rs => decodeNodes env d dv ns rs
    | .err => .err
    | .panic => .panic

/-- The loop xmp/unmarshal.go:112-139. -/
def descriptions (env : Env) (d : Dec) (dv : Version) : List Node → Str × List Root → Res (Str × List Root)
  | [], s => .ok s
  | n :: ns, s =>
    if n.fullName d.reg ≠ "rdf:Description".toList then .err
    else
      match decodeAttributes env d dv n.attrs s with
      | .ok (about, rs) =>
        match decodeNodes env d dv n.nodes rs with
        | .ok rs => descriptions env d dv ns (about, rs)
        | .err => .err
        | .panic => .panic
      | .err => .err
      | .panic => .panic

/-- The declarations that the decoder sees, xmp/unmarshal.go:104-108. -/
def declared (l : List Node) : List (Str × Str) :=
  l.flatMap (fun n => (n.getAttr "xmlns".toList []).map (fun a => (a.name.loc, a.value)))

/-- xmp/unmarshal.go:84-102: the `rdf:RDF` element; `none` is an error. -/
def rdfRoot (reg : Registry) (t : Node) : Option Node :=
  let r := if t.fullName reg = "x:xmpmeta".toList then
      (match t.nodes with
        | [n] => some n
        | _ => none)
    else some t
  match r with
  | some n => if n.fullName reg = "rdf:RDF".toList then some n else none
  | none => none

/-- xmp/unmarshal.go:71-146 `Decode` of a parsed tree with a new decoder.  The toolkit found in line 87 is overwritten
in line 141 by that of the decoder, which is never set. -/
def decode (env : Env) (dv : Version) (t : Node) : Res Packet :=
  match rdfRoot env.reg t with
  | none => .err
  | some root =>
    let d := declare env.reg (declared root.nodes)
    match descriptions env d dv root.nodes ([], []) with
    | .ok (about, rs) => .ok { doc := { roots := rs, intNs := d.int, extNs := d.ext }, about := about, toolkit := [] }
    | .err => .err
    | .panic => .panic

end Dec
end Xmp
