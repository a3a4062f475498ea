import Verif.Model.Node
import Verif.Model.AltString
import Verif.Model.TypeInfo

/-! Model of the JSON form of node trees (xmp/json.go).

A JSON value is a tree, an object a map; the text layer (`encoding/json`) is in `Model/JsonText.lean`.  Strings are assumed to be
valid UTF-8, others are changed by `encoding/json`. -/

namespace Xmp

open GoStr

/-- A JSON value as `encoding/json` reads it into an `interface{}`.  A number is given by its text under
`strconv.FormatFloat(val, 'f', -1, 64)` (xmp/json.go:298).  The entries of an object are listed in the order in which
a loop visits them; Go picks any order. -/
inductive Json where
  | str (s : Str)
  | num (s : Str)
  | bool (b : Bool)
  | null
  | arr (l : List Json)
  | obj (m : List (Str × Json))

namespace Json

/-- The URI of `nsRDF` (xmp/sdk.go:35). -/
def nsRdf : Str := "http://www.w3.org/1999/02/22-rdf-syntax-ns#".toList

/-- The language of default texts (xmp/json.go:191, 341). -/
def xDefault : Str := "x-default".toList

/-! ### To JSON -/

/-- xmp/array.go:46-50: `AltItem` under `encoding/json`. -/
def ofAltItem (x : AltItem) : Json :=
  .obj [("value".toList, .str x.value), ("lang".toList, .str x.lang), ("isDefault".toList, .bool x.isDefault)]

/-- xmp/json.go:184-195: an item of a language alternative. -/
def altItem (n : Node) : AltItem :=
  let lang := match n.getAttr [] "lang".toList with
    | a :: _ => a.value
    | [] => []
  { value := n.value, lang, isDefault := lang = xDefault }

/-- xmp/json.go:191-195: index and content of the last item of the default language. -/
def lastDefault : List AltItem → Option (Nat × Str)
  | [] => none
  | x :: xs =>
    match lastDefault xs with
    | some (i, s) => some (i + 1, s)
    | none => if x.lang = xDefault then some (0, x.value) else none

/-- xmp/json.go:178-210: the items of an array of texts. -/
def altItems (lis : List Node) : List AltItem :=
  let a := lis.map altItem
  match lastDefault a with
  | none => a
  | some (i, s) =>
    if s ≠ [] ∧ a.length > 1 then
      (a.map (fun x => if x.value = s then { x with isDefault := true } else x)).eraseIdx i
    else a

/-- xmp/json.go:131-140: the attributes. -/
def ofAttrs : List Attr → GoMap Json → GoMap Json
  | [], out => out
  | a :: as, out => ofAttrs as (if a.name.loc = "rdf:parseType".toList then out else out.set a.name.loc (.str a.value))

mutual
/-- xmp/json.go:123-223 `nodeToJson` for nodes without a model; it never returns an error. -/
def ofNode (r : Registry) : Node → Json
  | .mk _ attrs value nodes => if value ≠ [] then .str value else ofChildren r nodes (ofAttrs attrs [])
/-- The loop xmp/json.go:143-220. -/
def ofChildren (r : Registry) : List Node → GoMap Json → Json
  | [], out => .obj out
  | v :: vs, out =>
    if v.fullName r ∈ ["rdf:Bag".toList, "rdf:Seq".toList] then ofArray r v
    else if v.fullName r = "rdf:Alt".toList then ofAlt r v
    else ofChildren r vs (out.set (v.fullName r) (ofNode r v))
/-- xmp/json.go:147-162. -/
def ofArray (r : Registry) : Node → Json
  | .mk _ _ _ lis => .arr (ofItems r lis)
/-- xmp/json.go:164-211. -/
def ofAlt (r : Registry) : Node → Json
  | .mk _ _ _ lis =>
    match lis with
    | .mk n a v (x :: xs) :: ys => .arr (ofItems r (.mk n a v (x :: xs) :: ys))
    | lis => .arr ((altItems lis).map ofAltItem)
/-- The loops xmp/json.go:148-161 and 169-175.  (The first tests the value of the item before the call, as
`nodeToJson` does.) -/
def ofItems (r : Registry) : List Node → List Json
  | [] => []
  | n :: ns => ofNode r n :: ofItems r ns
end

/-! ### From JSON -/

/-- xmp/json.go:413-432 `isArrayItemType` on an object. -/
def isItem (m : GoMap Json) : Bool :=
  decide (m.length ≤ 3) && (m.get "value".toList).isSome && (m.get "lang".toList).isSome && (m.get "isDefault".toList).isSome

/-- xmp/json.go:434-443 `getArrayType`: is it an alternative? -/
def isAltArray : List Json → Bool
  | .obj m :: _ => isItem m
  | _ => false

/-- A node `rdf:li` (xmp/json.go:328). -/
def li (attrs : List Attr) (value : Str) : Node := .mk ⟨nsRdf, "li".toList⟩ attrs value []

/-- xmp/json.go:330-362: the nodes of an item of an alternative; the type assertions panic for values of other
types. -/
def altNodes : Json → Res (List Node)
  | .obj m =>
    match GoMap.get m "isDefault".toList, GoMap.get m "lang".toList, GoMap.get m "value".toList with
    | some (.bool def_), some (.str lang), some (.str val) =>
      .ok ((if def_ then [li [⟨⟨[], "xml:lang".toList⟩, xDefault⟩] val]
        else if lang ≠ [] then [li [⟨⟨[], "xml:lang".toList⟩, lang⟩] val]
        else [li [] []]) ++
        if def_ ∧ lang ≠ [] then [li [⟨⟨[], "xml:lang".toList⟩, lang⟩] val] else [])
    | _, _, _ => .panic
  | _ => .panic

/-- The loop xmp/json.go:327-366 for an alternative. -/
def altNodesAll : List Json → Res (List Node)
  | [] => .ok []
  | x :: xs =>
    match altNodes x with
    | .ok l =>
      match altNodesAll xs with
      | .ok l' => .ok (l ++ l')
      | .err => .err
      | .panic => .panic
    | .err => .err
    | .panic => .panic

/-- xmp/json.go:304-312: a simple value. -/
def addSimple (name s : Str) (node : Node) : Node :=
  if name ≠ [] ∧ name ≠ "rdf:value".toList then node.appendNode ((Node.new ⟨[], name⟩).setValue s)
  else node.setValue s

mutual
/-- xmp/json.go:290-383 `jsonToNode`; the result is the changed node. -/
def toNode : Json → Str → Node → Res Node
  | .str s, name, node => .ok (addSimple name s node)
  | .num s, name, node => .ok (addSimple name s node)
  | .bool b, name, node => .ok (addSimple name (if b then "true".toList else "false".toList) node)
  | .null, _, node => .ok node
  | .arr l, name, node =>
    if name = [] then .ok node
    else if isAltArray l then
      match altNodesAll l with
      | .ok lis => .ok (node.appendNode (.mk ⟨[], name⟩ [] [] [.mk ⟨nsRdf, "Alt".toList⟩ [] [] lis]))
      | .err => .err
      | .panic => .panic
    else
      match toItems l with
      | .ok lis => .ok (node.appendNode (.mk ⟨[], name⟩ [] [] [.mk ⟨nsRdf, "Seq".toList⟩ [] [] lis]))
      | .err => .err
      | .panic => .panic
  | .obj m, name, node =>
    if name = [] then toFields (isItem m) m node
    else
      match toFields (isItem m) m (Node.new ⟨[], name⟩) with
      | .ok o => .ok (node.appendNode o)
      | .err => .err
      | .panic => .panic
/-- The loop xmp/json.go:327-366 for other arrays. -/
def toItems : List Json → Res (List Node)
  | [] => .ok []
  | x :: xs =>
    match toNode x [] (li [] []) with
    | .ok n =>
      match toItems xs with
      | .ok l => .ok (n :: l)
      | .err => .err
      | .panic => .panic
    | .err => .err
    | .panic => .panic
/-- The loop xmp/json.go:375-381. -/
def toFields (item : Bool) : List (Str × Json) → Node → Res Node
  | [], node => .ok node
  | (k, v) :: m, node =>
    match toNode v (if item ∧ k = "value".toList then [] else k) node with
    | .ok n => toFields item m n
    | .err => .err
    | .panic => .panic
end

/-- xmp/json.go:253-263: the node of a model. -/
def toModel (name : Str) : Json → Res Node
  | .obj m => toFields false m (Node.new ⟨[], name⟩)
  | .null => .ok (Node.new ⟨[], name⟩)
  | _ => .err

end Json
end Xmp
