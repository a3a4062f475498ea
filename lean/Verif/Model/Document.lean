import Verif.Model.Registry

/-! Model of the document level operations of xmp/document.go: the list of top-level nodes with the
models attached to them, the two namespace maps and the dirty flag. -/

namespace Xmp

open GoStr

/-- An instance of the interface xmp/registry.go:26-35 `Model`: `id` stands for the identity of the
instance, `nss` for `Namespaces()`, `canNames` for the prefixes for which `Can` is true. -/
structure XModel where
  id : Nat
  nss : List Namespace
  canNames : List Str
deriving DecidableEq, Repr

/-- `Model.Can`. -/
def XModel.can (m : XModel) (pfx : Str) : Bool := decide (pfx ∈ m.canNames)

/-- A top-level node of a document (xmp/node.go:31-37).  Attributes, value and child nodes are
represented by the opaque `content`, which the operations below never touch. -/
structure TopNode where
  space : Str := []
  loc : Str
  model : Option XModel := none
  content : Nat := 0
deriving DecidableEq, Repr

/-- xmp/node.go:198-200 `Node.Name`. -/
def TopNode.name (n : TopNode) : Str := stripPrefix n.loc

/-- xmp/node.go:209-215 `Node.Namespace`. -/
def TopNode.ns (n : TopNode) : Str := if n.space = [] then getPrefix n.loc else n.space

/-- xmp/document.go:22-39 `Document` (toolkit and about are not modelled). -/
structure Doc where
  nodes : List TopNode := []
  dirty : Bool := false
  intNs : GoMap Namespace := []
  extNs : GoMap Namespace := []
deriving DecidableEq, Repr

namespace Doc

/-- xmp/document.go:52-54 `SetDirty`. -/
def setDirty (d : Doc) : Doc := { d with dirty := true }

/-- xmp/document.go:60-68 `Close` (the nodes go back to the pool). -/
def close (d : Doc) : Doc := { d with nodes := [] }

/-- The test of xmp/node.go:161-166. -/
def nodeMatches (pfx : Str) (v : TopNode) : Bool :=
  decide (v.name = pfx) || (match v.model with | some m => m.can pfx | none => false)

/-- xmp/document.go:126-128 `FindNode`, xmp/node.go:155-169 (returns the node itself). -/
def findNode (d : Doc) (ns : Namespace) : Option TopNode := d.nodes.find? (nodeMatches ns.name)

/-- xmp/document.go:130-138 `FindModel`. -/
def findModel (d : Doc) (ns : Namespace) : Option XModel :=
  d.nodes.findSome? fun v =>
    match v.model with
    | some m => if m.can ns.name then some m else none
    | none => none

/-- xmp/document.go:260-268 `findNsByURI`. -/
def findNsByURI (d : Doc) (uri : Str) : Option Namespace :=
  match d.intNs.get uri with
  | some v => some v
  | none => d.extNs.get uri

/-- xmp/document.go:270-285 `findNsByPrefix`: the first match in map iteration order. -/
def findNsByPrefix (r : Registry) (d : Doc) (pre : Str) : Option Namespace :=
  match d.intNs.find? (fun e => e.2.name = pre) with
  | some e => some e.2
  | none =>
    match d.extNs.find? (fun e => e.2.name = pre) with
    | some e => some e.2
    | none => r.getNamespace pre

/-- xmp/document.go:140-149 `FindNs`. -/
def findNs (r : Registry) (d : Doc) (name uri : Str) : Option Namespace :=
  let ns := if uri ≠ [] then d.findNsByURI uri else none
  match ns with
  | some v => some v
  | none => findNsByPrefix r d (getPrefix name)

/-- `for _, v := range nss { d.intNsMap[v.GetURI()] = v }` (xmp/document.go:160-162, 176-178). -/
def trackNs (m : GoMap Namespace) (nss : List Namespace) : GoMap Namespace :=
  nss.foldl (fun m v => m.set v.uri v) m

/-- xmp/document.go:151-166 `MakeModel`; `fresh` is the result of `ns.NewModel()`.  The result is the
model returned (`none` on error) and the document. -/
def makeModel (d : Doc) (ns : Namespace) (fresh : Option XModel) : Option XModel × Doc :=
  match d.findModel ns with
  | some m => (some m, d)
  | none =>
    match fresh with
    | none => (none, d)
    | some m =>
      (some m, { d with
        nodes := d.nodes ++ [{ loc := expandName ns.name [], model := some m }]
        intNs := trackNs d.intNs m.nss
        dirty := true })

/-- Replace the model of the first node satisfying `p`. -/
def setModelAt (p : TopNode → Bool) (m : XModel) : List TopNode → List TopNode
  | [] => []
  | v :: vs => if p v then { v with model := some m } :: vs else v :: setModelAt p m vs

/-- xmp/document.go:168-187 `AddModel`; `none` is an error (nil model, or no namespace).  The node
found is changed through its pointer, hence in place. -/
def addModel (d : Doc) (v : Option XModel) : Option Doc :=
  match v with
  | none => none
  | some m =>
    match m.nss with
    | [] => none
    | ns0 :: _ =>
      let int := trackNs d.intNs m.nss
      match d.findNode ns0 with
      | none =>
        some { d with nodes := d.nodes ++ [{ loc := expandName ns0.name [], model := some m }]
                      intNs := int, dirty := true }
      | some _ =>
        some { d with nodes := setModelAt (nodeMatches ns0.name) m d.nodes
                      intNs := int, dirty := true }

/-- xmp/document.go:189-207 `RemoveNamespace` (`ns` non-nil): removes the first node of that name. -/
def removeNamespace (d : Doc) (ns : Namespace) : Bool × Doc :=
  if d.nodes.any (fun v => v.name = ns.name) then
    (true, { nodes := d.nodes.eraseP (fun v => v.name = ns.name)
             dirty := true
             intNs := d.intNs.del ns.uri
             extNs := d.extNs.del ns.uri })
  else (false, d)

/-- xmp/document.go:209-212 `RemoveNamespaceByName`. -/
def removeNamespaceByName (r : Registry) (d : Doc) (n : Str) : Bool × Doc :=
  match findNsByPrefix r d n with
  | some ns => d.removeNamespace ns
  | none => (false, d)

/-- xmp/document.go:215-222 `RemoveNamespaces`. -/
def removeNamespaces (d : Doc) : List Namespace → Bool × Doc
  | [] => (false, d)
  | ns :: rest =>
    let (r, d') := d.removeNamespace ns
    let (r', d'') := removeNamespaces d' rest
    (r || r', d'')

/-- xmp/document.go:226-244 `FilterNamespaces`. -/
def filterNamespaces (r : Registry) (d : Doc) (keep : List Namespace) : Bool × Doc :=
  let allNs := d.nodes.filterMap (fun v => findNsByPrefix r d v.ns)
  d.removeNamespaces (allNs.filter (fun v => !NamespaceList.contains keep (some v)))

/-- xmp/node.go:140-148 `NodeList.AddNode` on the top-level list, as used by `SetPath` to create a
node without model (xmp/path.go:476-478). -/
def addRawNode (nodes : List TopNode) (n : TopNode) : List TopNode :=
  match nodes with
  | [] => [n]
  | v :: vs => if v.loc = n.loc then n :: vs else v :: addRawNode vs n

/-- The node creating part of `SetPath` for a namespace without factory (xmp/path.go:462-478). -/
def ensureRaw (d : Doc) (ns : Namespace) : Doc :=
  match d.findModel ns, d.findNode ns with
  | none, none => { d with nodes := addRawNode d.nodes { loc := ns.name } }
  | _, _ => d

end Doc

/-- xmp/filter.go:138-149 `Filter.Apply`. -/
def Filter.apply (r : Registry) (x : Filter) (d : Doc) : Bool × Doc :=
  let (r1, d1) := if x.incl.length > 0 then Doc.filterNamespaces r d x.incl else (false, d)
  let (r2, d2) := if x.excl.length > 0 then d1.removeNamespaces x.excl else (false, d1)
  (r1 || r2, d2)

/-! ### Synchronisation of models -/

/-- Effect of a call of a model's `SyncToXMP`/`SyncFromXMP`/`SyncModel` on the document: the document
afterwards and whether it failed. -/
abbrev SyncFn := XModel → Doc → Doc × Bool

/-- The loops of xmp/document.go:71-109 over the nodes present at the start: call `f` for every model
until one fails.  Result: calls made (in order), document, success. -/
def Doc.syncLoop (f : SyncFn) : List TopNode → Doc → List XModel × Doc × Bool
  | [], d => ([], d, true)
  | n :: ns, d =>
    match n.model with
    | none => syncLoop f ns d
    | some m =>
      let (d1, failed) := f m d
      if failed then ([m], d1, false)
      else
        let (calls, d2, ok) := syncLoop f ns d1
        (m :: calls, d2, ok)

/-- xmp/document.go:71-80 `SyncModels`, 84-93 `syncFromXMP`. -/
def Doc.syncModels (f : SyncFn) (d : Doc) : List XModel × Doc × Bool := Doc.syncLoop f d.nodes d

/-- xmp/document.go:96-109 `syncToXMP`. -/
def Doc.syncToXMP (f : SyncFn) (d : Doc) : List XModel × Doc × Bool :=
  if !d.dirty then ([], d, true)
  else
    let (calls, d1, ok) := Doc.syncLoop f d.nodes d
    if ok then (calls, { d1 with dirty := false }, true) else (calls, d1, false)

end Xmp
