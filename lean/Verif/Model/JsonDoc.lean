import Verif.Model.DocXmp
import Verif.Model.Json

/-! Model of writing a document as JSON (xmp/json.go:39-121) and of reading it (xmp/json.go:230-288).

The text layer (`encoding/json`) is in `Model/JsonText.lean`.  The hooks `SyncToXMP` and `SyncFromXMP` of
models are taken to do nothing. -/

namespace Xmp

open GoStr

/-- xmp/json.go:25-38: `jsonDocument` and `jsonOutDocument`.  Empty texts that `omitempty` leaves out are read as empty. -/
structure JDoc where
  about : Str := []
  toolkit : Str := []
  namespaces : GoMap Str := []
  models : GoMap Json := []

namespace JDoc

/-! ### Writing -/

/-- The inner loop xmp/json.go:93-98.  The list of `Namespaces` has one entry for a prefix, whatever the order. -/
def addNamespaces : List Namespace → GoMap Str → GoMap Str
  | [], m => m
  | ns :: l, m => addNamespaces l (if ns = nsX ∨ ns = nsXML ∨ ns = nsRDF then m else m.set ns.name ns.uri)

/-- The loop xmp/json.go:92-99. -/
def namespacesOf (env : Env) (d : XDoc) : List Node → GoMap Str → GoMap Str
  | [], m => m
  | w :: ws, m => namespacesOf env d ws (addNamespaces (Enc.namespaces env d w) m)

/-- The loop xmp/json.go:102-112. -/
def modelsOf (r : Registry) : List Node → GoMap Json → GoMap Json
  | [], m => m
  | w :: ws, m => modelsOf r ws (if w.isZero then m else m.set w.namespace_ (Json.ofNode r w))

/-- xmp/json.go:39-121 `MarshalJSON`; lines 57-89 are those of the encoder; `none` is an error. -/
def ofDoc (env : Env) (p : Packet) : Option JDoc :=
  match Enc.roots env p.doc p.doc.roots [] with
  | none => none
  | some ws => some {
      about := p.about
      toolkit := if p.toolkit = [] then Enc.toolkitVersion else p.toolkit
      namespaces := namespacesOf env p.doc ws []
      models := modelsOf env.reg ws [] }

/-! ### Reading -/

/-- The loop xmp/json.go:253-263. -/
def nodesOf : List (Str × Json) → Res (List Node)
  | [] => .ok []
  | (k, j) :: m =>
    match Json.toModel k j with
    | .ok n =>
      match nodesOf m with
      | .ok l => .ok (n :: l)
      | .err => .err
      | .panic => .panic
    | .err => .err
    | .panic => .panic

/-- The loop xmp/json.go:268-272. -/
def decodeAttributes (env : Env) (d : Dec) (dv : Version) : List Attr → List Root → Res (List Root)
  | [], rs => .ok rs
  | a :: as, rs =>
    match Dec.decodeAttribute env d dv rs a with
    | .ok rs => decodeAttributes env d dv as rs
    | .err => .err
    | .panic => .panic

/-- The loop xmp/json.go:266-279. -/
def decodeTrees (env : Env) (d : Dec) (dv : Version) : List Node → List Root → Res (List Root)
  | [], rs => .ok rs
  | n :: ns, rs =>
    match decodeAttributes env d dv n.attrs rs with
    | .ok rs =>
      match Dec.decodeNodes env d dv n.nodes rs with
      | .ok rs => decodeTrees env d dv ns rs
      | .err => .err
      | .panic => .panic
    | .err => .err
    | .panic => .panic

/-- xmp/json.go:230-288 `UnmarshalJSON` with a new decoder.  The entries of both maps are listed in the order in which
they are visited. -/
def toDoc (env : Env) (dv : Version) (jd : JDoc) : Res Packet :=
  let d := Dec.declare env.reg jd.namespaces
  match nodesOf jd.models with
  | .ok ns =>
    match decodeTrees env d dv ns [] with
    | .ok rs => .ok { doc := { roots := rs, intNs := d.int, extNs := d.ext }, about := jd.about, toolkit := jd.toolkit }
    | .err => .err
    | .panic => .panic
  | .err => .err
  | .panic => .panic

end JDoc
end Xmp
