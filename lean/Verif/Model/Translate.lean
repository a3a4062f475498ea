import Verif.Model.Node

/-! Model of namespace handling in the decoder, xmp/unmarshal.go:329-398 and xmp/node.go:716-726. -/

namespace Xmp

open GoStr

/-- The namespace maps of the decoder, xmp/unmarshal.go:36-44, and the global registry. -/
structure Dec where
  reg : Registry
  int : GoMap Namespace := []
  ext : GoMap Namespace := []

namespace Dec

/-- xmp/unmarshal.go:352-363 `addNamespace`.  The registry always knows the prefix that it returned for a URI
(`RegisterNamespace` sets both maps and nothing is removed), so the nil namespace of line 355 does not occur. -/
def addNamespace (d : Dec) (pfx uri : Str) : Dec :=
  let p := d.reg.getPrefix uri
  if p.length > 0 then
    match d.reg.getNamespace p with
    | some ns => { d with int := d.int.set uri ns }
    | none => d
  else
    match d.ext.get uri with
    | some _ => d
    | none => { d with ext := d.ext.set uri ⟨pfx, uri, none⟩ }

/-- xmp/unmarshal.go:365-373 `_findNsByURI`. -/
def findByURI (d : Dec) (uri : Str) : Option Namespace :=
  match d.int.get uri with
  | some v => some v
  | none => d.ext.get uri

/-- xmp/unmarshal.go:375-387 `_findNsByPrefix`: the first match in map iteration order. -/
def findByPrefix (d : Dec) (pre : Str) : Option Namespace :=
  match d.int.find? (fun e => e.2.name = pre) with
  | some e => some e.2
  | none => (d.ext.find? (fun e => e.2.name = pre)).map (·.2)

/-- xmp/unmarshal.go:389-398 `findNs`. -/
def findNs (d : Dec) (n : QName) : Option Namespace :=
  match (if n.space ≠ [] then d.findByURI n.space else none) with
  | some ns => some ns
  | none => d.findByPrefix (getPrefix n.loc)

/-- xmp/unmarshal.go:334-346 `translate`. -/
def translate (d : Dec) (n : QName) : QName :=
  if n.space = [] ∨ n.space = "xmlns".toList then n
  else
    match (d.findNs n).or (d.reg.getNamespace (d.reg.getPrefix n.space)) with
    | some ns => ⟨[], expandName ns.name n.loc⟩
    | none => n

/-- The loop of xmp/unmarshal.go:104-108 over the declarations (prefix and URI) of a document. -/
def declare (reg : Registry) (l : List (Str × Str)) : Dec := l.foldl (fun d x => d.addNamespace x.1 x.2) { reg := reg }

end Dec

mutual
/-- xmp/node.go:716-726 `Node.translate`. -/
def Node.translate (d : Dec) : Node → Node
  | .mk n a v l => .mk (d.translate n) (a.map (fun x => { x with name := d.translate x.name })) v (Node.translateList d l)
/-- The loop of xmp/node.go:723-725. -/
def Node.translateList (d : Dec) : List Node → List Node
  | [] => []
  | x :: xs => x.translate d :: Node.translateList d xs
end

end Xmp
