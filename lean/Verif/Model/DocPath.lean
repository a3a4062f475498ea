import Verif.Model.Document
import Verif.Model.NodePath
import Verif.Model.ModelPath

/-! Model of path access to whole documents: `Document.GetPath` and `Document.SetPath` of xmp/path.go,
`Document.Sync` and `Document.Merge` of xmp/sync.go.

In contrast to `Xmp.Doc`, top-level nodes carry their node tree and models their typed value. -/

namespace Xmp

open GoStr SyncFlags

/-- A model instance: `nss` stands for `Namespaces()`, `canNames` for the prefixes for which `Can` is true,
`ty` and `val` for the struct behind it. -/
structure Mdl where
  nss : List Namespace
  canNames : List Str
  ty : Ty
  val : Val

/-- `Model.Can`. -/
def Mdl.can (m : Mdl) (pfx : Str) : Bool := decide (pfx ∈ m.canNames)

/-- A top-level node (xmp/node.go:31-37) with its model. -/
structure Root where
  node : Node
  model : Option Mdl := none

/-- xmp/document.go:22-39 `Document` (toolkit and about are not modelled). -/
structure XDoc where
  roots : List Root := []
  dirty : Bool := false
  intNs : GoMap Namespace := []
  extNs : GoMap Namespace := []

/-- What lies outside of a document: the global registry, and the model factories (by the number of the
factory in `Namespace.factory`, applied to the prefix; `none` is a nil model). -/
structure Env where
  reg : Registry
  make : Nat → Str → Option Mdl

/-- xmp/namespace.go:111-116 `NewModel`. -/
def Env.newModel (env : Env) (ns : Namespace) : Option Mdl :=
  match ns.factory with
  | none => none
  | some f => env.make f ns.name

namespace XDoc

/-- The test of xmp/node.go:161-166. -/
def rootMatches (pfx : Str) (v : Root) : Bool :=
  decide (v.node.name = pfx) || (match v.model with | some m => m.can pfx | none => false)

/-- The test of xmp/document.go:133. -/
def modelMatches (pfx : Str) (v : Root) : Bool :=
  match v.model with
  | some m => m.can pfx
  | none => false

/-- xmp/document.go:126-128 `FindNode`: the position of the node found. -/
def findNode (d : XDoc) (ns : Namespace) : Option Nat := d.roots.findIdx? (rootMatches ns.name)

/-- xmp/document.go:130-138 `FindModel`: the position of the node whose model is returned. -/
def findModel (d : XDoc) (ns : Namespace) : Option Nat := d.roots.findIdx? (modelMatches ns.name)

/-- xmp/document.go:270-285 `findNsByPrefix`. -/
def findNsByPrefix (env : Env) (d : XDoc) (pre : Str) : Option Namespace :=
  match d.intNs.find? (fun e => e.2.name = pre) with
  | some e => some e.2
  | none =>
    match d.extNs.find? (fun e => e.2.name = pre) with
    | some e => some e.2
    | none => env.reg.getNamespace pre

/-- xmp/path.go:132-139 `Path.Namespace`; `none` is an error. -/
def pathNs (env : Env) (d : XDoc) (p : Path) : Option Namespace :=
  match indexChar ':' p with
  | some i => d.findNsByPrefix env (p.take i)
  | none => none

/-- xmp/document.go:168-187 `AddModel` for a non-nil model: the position of the node; `none` is an error
(no namespace). -/
def addModel (d : XDoc) (m : Mdl) : Option Nat × XDoc :=
  match m.nss with
  | [] => (none, d)
  | ns0 :: _ =>
    let int := Doc.trackNs d.intNs m.nss
    match d.findNode ns0 with
    | none =>
      (some d.roots.length,
        { d with roots := d.roots ++ [⟨Node.new ⟨[], expandName ns0.name []⟩, some m⟩], intNs := int, dirty := true })
    | some i =>
      (some i, { d with roots := d.roots.modify i (fun r => { r with model := some m }), intNs := int, dirty := true })

/-- xmp/node.go:140-148 `NodeList.AddNode` on top-level nodes: the position of the node and the list. -/
def addRoot (x : Root) : List Root → Nat × List Root
  | [] => (0, [x])
  | v :: vs =>
    if v.node.xmlName.loc = x.node.xmlName.loc then (0, x :: vs)
    else ((addRoot x vs).1 + 1, v :: (addRoot x vs).2)

/-- xmp/document.go:189-207 `RemoveNamespace`. -/
def removeNamespace (d : XDoc) (ns : Namespace) : XDoc :=
  if d.roots.any (fun v => v.node.name = ns.name) then
    { roots := d.roots.eraseP (fun v => v.node.name = ns.name)
      dirty := true
      intNs := d.intNs.del ns.uri
      extNs := d.extNs.del ns.uri }
  else d

/-- Result of `Node.GetPath` as the caller sees it. -/
def nodeRes : Option Str → GetRes
  | some s => .ok s
  | none => .err

/-- xmp/path.go:252-279 `GetPath`; all errors are `err`. -/
def getPath (env : Env) (d : XDoc) (p : Path) : GetRes :=
  if !p.isXmpPath then .err
  else
    match d.pathNs env p with
    | none => .err
    | some ns =>
      match d.findNode ns with
      | none => .err
      | some i =>
        match d.roots[i]? with
        | none => .err
        | some r =>
          match r.model with
          | none => nodeRes (r.node.getPath p)
          | some m =>
            match getModelPath m.ty m.val p with
            | .ok s => .ok s
            | .err => .err
            | .notFound => nodeRes (r.node.getPath p)

/-- Reading the current value, xmp/path.go:496-504.  `m` and `n` are the positions of model and node;
`none`: a nil node is used (a run-time panic). -/
def current (d : XDoc) (m n : Option Nat) (p : Path) : Option GetRes :=
  let raw : Option GetRes :=
    match n.bind (d.roots[·]?) with
    | some r => some (nodeRes (r.node.getPath p))
    | none => none
  match (m.bind (d.roots[·]?)).bind (·.model) with
  | none => raw
  | some mdl =>
    match getModelPath mdl.ty mdl.val p with
    | .notFound => raw
    | r => some r

/-- Store a changed model value. -/
def setVal (d : XDoc) (i : Nat) (v : Val) : XDoc :=
  { d with roots := d.roots.modify i (fun r => { r with model := r.model.map (fun m => { m with val := v }) }) }

/-- Store a changed node tree. -/
def setNode (d : XDoc) (i : Nat) (n : Node) : XDoc :=
  { d with roots := d.roots.modify i (fun r => { r with node := n }) }

/-- `n.SetPath` on the node at a position, xmp/path.go:529-534. -/
def writeNode (env : Env) (d : XDoc) (n : Option Nat) (p : Path) (value : Str) (flags : SyncFlags) : XDoc × SetRes :=
  match n with
  | none => (d, .panic)
  | some j =>
    match d.roots[j]? with
    | none => (d, .panic)
    | some r =>
      let res := r.node.setPath env.reg p value flags
      (d.setNode j res.1, if res.2 then .ok else .err)

/-- Writing the value, xmp/path.go:527-534. -/
def write (env : Env) (d : XDoc) (m n : Option Nat) (p : Path) (value : Str) (flags : SyncFlags) : XDoc × SetRes :=
  match m with
  | none => writeNode env d n p value flags
  | some i =>
    match (d.roots[i]?).bind (·.model) with
    | none => writeNode env d n p value flags
    | some mdl =>
      let res := setModelPath mdl.ty mdl.val p value flags
      let d1 := d.setVal i res.1
      match res.2 with
      | .notFound => writeNode env d1 n p value flags
      | r => (d1, r)

/-- An error that the `NOFAIL` flag suppresses. -/
def fail (flags : SyncFlags) : SetRes := if flags.has NOFAIL then .ok else .err

/-- The namespace of `SetPath`, xmp/path.go:452-460: an unknown namespace is registered when its URI is
given.  The result includes the changed registry. -/
def resolveNs (env : Env) (d : XDoc) (desc : PathValue) : Option (Namespace × Registry) :=
  match d.pathNs env desc.path with
  | some ns => some (ns, env.reg)
  | none =>
    if desc.ns ≠ [] then
      some (⟨desc.path.namespacePrefix, desc.ns, none⟩, env.reg.register ⟨desc.path.namespacePrefix, desc.ns, none⟩ [])
    else none

/-- Model and node of the namespace, created if missing, xmp/path.go:462-478. -/
def prepare (env : Env) (d : XDoc) (ns : Namespace) : Option Nat × Option Nat × XDoc :=
  match d.findModel ns, d.findNode ns with
  | some i, n => (some i, n, d)
  | none, n =>
    match env.newModel ns with
    | some m =>
      let r := d.addModel m
      (r.1, r.1, r.2)
    | none =>
      match n with
      | some j => (none, some j, d)
      | none =>
        let r := addRoot ⟨Node.new ⟨[], ns.name⟩, none⟩ d.roots
        (none, some r.1, { d with roots := r.2 })

/-- The rest of `SetPath` for a path below the root, xmp/path.go:495-540.  (A model whose `AddModel` failed
is detached from the document; it is not modelled.) -/
def update (env : Env) (d : XDoc) (m n : Option Nat) (p : Path) (value : Str) (flags : SyncFlags) : XDoc × SetRes :=
  match d.current m n p with
  | none => (d, .panic)
  | some .notFound => (d, .err)
  | some .err => (d, .err)
  | some (.ok dest) =>
    if dest = value then (d, .ok)
    else if dest = [] ∧ flags.has (CREATE ||| APPEND ||| UNIQUE) = false then (d, fail flags)
    else if dest ≠ [] ∧ flags.has (REPLACE ||| DELETE ||| APPEND ||| UNIQUE) = false then (d, fail flags)
    else
      let res := d.write env m n p value flags
      match res.2 with
      | .panic => res
      | .ok => ({ res.1 with dirty := true }, .ok)
      | _ => (res.1, fail flags)

/-- xmp/path.go:440-541 `SetPath`: the document, the registry and the result.  Deleting a namespace
(path of length 0 with the delete flag) goes on with the removed model or the closed node, whose value is
empty and whose changes are not part of the document any more. -/
def setPath (env : Env) (d : XDoc) (desc : PathValue) : XDoc × Registry × SetRes :=
  let flags := if desc.flags = 0 then DEFAULT else desc.flags
  if !desc.path.isXmpPath then (d, env.reg, .err)
  else
    match d.resolveNs env desc with
    | none => (d, env.reg, .err)
    | some (ns, reg) =>
      if (d.findModel ns).isNone ∧ (d.findNode ns).isNone ∧ flags.has CREATE = false then (d, reg, fail flags)
      else
        let env' : Env := { env with reg := reg }
        let r := d.prepare env' ns
        let d1 := r.2.2
        if desc.value = [] ∧ flags.has DELETE = false then (d1, reg, fail flags)
        else if desc.path.len = 0 ∧ flags.has DELETE = true then
          let d2 := d1.removeNamespace ns
          if desc.value = [] then (d2, reg, .ok)
          else if flags.has (CREATE ||| APPEND ||| UNIQUE) = false then (d2, reg, fail flags)
          else ({ d2 with dirty := true }, reg, .ok)
        else
          let res := d1.update env' r.1 r.2.1 desc.path desc.value flags
          (res.1, reg, res.2)

/-! ### Synchronisation of properties -/

/-- The destination model of `Sync`, xmp/sync.go:181-199: `none` means that nothing is to be done,
`some none` that there is no model (a run-time panic).  `v` is the position of the model given by the
caller. -/
def syncDest (env : Env) (d : XDoc) (dNs : Namespace) (dPath : Path) (v : Option Nat) (flags : SyncFlags) :
    Option (Option Nat × XDoc) :=
  match v with
  | some i =>
    match (d.roots[i]?).bind (·.model) with
    | none => none
    | some m =>
      match m.nss with
      | [] => some (none, d)
      | ns0 :: _ => if ns0.name = dPath.namespacePrefix then some (some i, d) else none
  | none =>
    match d.findModel dNs with
    | some i => some (some i, d)
    | none =>
      if flags.has CREATE = false then none
      else
        match env.newModel dNs with
        | none => some (none, d)
        | some m => some (d.addModel m)

/-- xmp/sync.go:206-247: compare, decide, convert and write. -/
def syncValues (d : XDoc) (s t : Mdl) (ti : Nat) (sPath dPath : Path) (flags : SyncFlags)
    (f : Option (Str → Str)) : XDoc × SetRes :=
  match getModelPath s.ty s.val sPath with
  | .ok sValue =>
    match getModelPath t.ty t.val dPath with
    | .ok dValue =>
      if sValue = dValue then (d, .ok)
      else if sValue = [] ∧ flags.has DELETE = false then (d, .ok)
      else if dValue = [] ∧ flags.has CREATE = false then (d, .ok)
      else if dValue ≠ [] ∧ flags.has (REPLACE ||| DELETE ||| APPEND ||| UNIQUE) = false then (d, .ok)
      else
        let value := match f with | some g => g sValue | none => sValue
        let res := setModelPath t.ty t.val dPath value flags
        let d1 := d.setVal ti res.1
        match res.2 with
        | .ok => ({ d1 with dirty := true }, .ok)
        | .panic => (d1, .panic)
        | _ => (d1, fail flags)
    | _ => (d, fail flags)
  | _ => (d, fail flags)

/-- xmp/sync.go:156-248 `Sync`.  `v` is the position of the model given by the caller (`none` is a nil
model); models outside of the document are not modelled. -/
def sync (env : Env) (d : XDoc) (sPath dPath : Path) (flags : SyncFlags) (v : Option Nat)
    (f : Option (Str → Str)) : XDoc × SetRes :=
  let flags := if flags = 0 then DEFAULT else flags
  if !sPath.isXmpPath || !dPath.isXmpPath then (d, .ok)
  else
    match d.pathNs env sPath, d.pathNs env dPath with
    | some sNs, some dNs =>
      match d.findModel sNs with
      | none => (d, .ok)
      | some si =>
        match d.syncDest env dNs dPath v flags with
        | none => (d, .ok)
        | some (none, d1) => (d1, .panic)
        | some (some ti, d1) =>
          match (d1.roots[si]?).bind (·.model), (d1.roots[ti]?).bind (·.model) with
          | some s, some t => d1.syncValues s t ti sPath dPath flags f
          | _, _ => (d1, .panic)
    | _, _ => (d, .ok)

/-- xmp/sync.go:62-67 `SyncDesc`. -/
structure SyncDesc where
  source : Path
  dest : Path
  flags : SyncFlags
  convert : Option (Str → Str)

/-- xmp/sync.go:147-154 `SyncMulti`. -/
def syncMulti (env : Env) (v : Option Nat) : XDoc → List SyncDesc → XDoc × SetRes
  | d, [] => (d, .ok)
  | d, x :: xs =>
    match d.sync env x.source x.dest x.flags v x.convert with
    | (d1, .ok) => syncMulti env v d1 xs
    | r => r

/-- The last loop of xmp/sync.go:266-271. -/
def setPaths (env : Env) (flags : SyncFlags) : XDoc → PathValueList → XDoc × Registry × SetRes
  | d, [] => (d, env.reg, .ok)
  | d, x :: xs =>
    match d.setPath env { x with flags := flags } with
    | (d1, reg, .ok) => setPaths { env with reg := reg } flags d1 xs
    | r => r

/-- xmp/sync.go:250-274 `Merge`; `l` is the result of `b.ListPaths()` (which does not fail), `bInt` and
`bExt` are the namespace maps of `b`. -/
def merge (env : Env) (d : XDoc) (l : PathValueList) (bInt bExt : GoMap Namespace) (flags : SyncFlags) :
    XDoc × Registry × SetRes :=
  let d1 := { d with
    intNs := bInt.foldl (fun m e => m.set e.1 e.2) d.intNs
    extNs := bExt.foldl (fun m e => m.set e.1 e.2) d.extNs }
  match setPaths env flags d1 l with
  | (d2, reg, .ok) => ({ d2 with dirty := true }, reg, .ok)
  | r => r

end XDoc
end Xmp
