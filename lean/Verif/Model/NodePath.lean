import Verif.Model.Node
import Verif.Model.Array

/-! Model of path access to generic node trees: `GetPath` and `SetPath` of xmp/node.go. -/

namespace Xmp

open GoStr SyncFlags

/-- Put `x` in the place of the first node satisfying `p` (the change made through a pointer to that
node). -/
def replaceFirst (p : Node → Bool) (x : Node) : List Node → List Node
  | [] => []
  | y :: ys => if p y then x :: ys else y :: replaceFirst p x ys

/-- xmp/node.go:180-185 `NodeList.RemoveNode` for the first node satisfying `p`. -/
def removeFirst (p : Node → Bool) : List Node → List Node
  | [] => []
  | y :: ys => if p y then ys else y :: removeFirst p ys

/-- Test of xmp/node.go:423-427, 570-571, 589-590, 608-609: the first `lang` attribute of a node is
`lang`. -/
def hasLang (lang : Str) (v : Node) : Bool :=
  match v.getAttr [] "lang".toList with
  | a :: _ => decide (a.value = lang)
  | [] => false

/-- The loops of xmp/node.go:505-507 and 538-540: append `rdf:li` nodes until index `idx` exists. -/
def extendTo (idx : Nat) (l : List Node) : List Node := l ++ List.replicate (idx + 1 - l.length) liNode

/-- xmp/node.go:392-441 `GetPath`; `none` is an error.  The first argument bounds the recursion, which
pops one segment per call; running out of it can not happen when it exceeds the number of segments. -/
def Node.getPathF : Nat → Node → Path → Option Str
  | 0, _, _ => none
  | f + 1, n, p =>
    let path := (Path.popFront p).2
    match parsePathSegment (Path.popFront p).1 with
    | (name, idx, lang) =>
      if idx < -1 then none
      else if name = [] ∧ idx = -1 ∧ lang = [] then
        if path.len = 0 then some n.value else Node.getPathF f n path
      else
        match NodeList.findNodeByName n.nodes (stripPrefix name) with
        | some node =>
          if idx > -1 then
            match node.nodes with
            | [] => some []
            | arr :: _ =>
              match arr.nodes[idx.toNat]? with
              | none => some []
              | some li => Node.getPathF f li path
          else if lang ≠ [] then
            match node.nodes with
            | [] => some []
            | arr :: _ =>
              match arr.nodes.find? (hasLang lang) with
              | some v => some v.value
              | none => some []
          else Node.getPathF f node path
        | none =>
          match n.getAttr [] (stripPrefix name) with
          | a :: _ => some a.value
          | [] => some []

/-- xmp/node.go:392-441 `GetPath`. -/
def Node.getPath (n : Node) (p : Path) : Option Str := Node.getPathF (p.len + 1) n p

/-- What the end of the array branch does to the array node (xmp/node.go:512-555): keep the changed
array, remove it from its parent, or fail. -/
inductive ArrEffect where
  | keep (arr : Node)
  | drop
  | fail

/-- xmp/node.go:512-555: the last segment addresses an array (index -1) or an element of it. -/
def setArrayEnd (arr : Node) (idx : Int) (value : Str) (flags : SyncFlags) : ArrEffect :=
  let li := liNode.setValue value
  if has flags UNIQUE ∧ value ≠ [] ∧ idx = -1 then
    if arr.nodes.any (fun v => v.value = value) then .keep arr else .keep (arr.appendNode li)
  else if has flags APPEND ∧ value ≠ [] ∧ idx = -1 then .keep (arr.appendNode li)
  else if has flags (REPLACE ||| CREATE) ∧ value ≠ [] ∧ idx = -1 then .keep (arr.setNodes [li])
  else if has flags (REPLACE ||| CREATE) ∧ value ≠ [] ∧ idx > -1 then
    .keep (arr.setNodes ((extendTo idx.toNat arr.nodes).modify idx.toNat (fun v => v.setValue value)))
  else if has flags DELETE ∧ value = [] ∧ idx = -1 then .drop
  else if has flags DELETE ∧ value = [] ∧ idx > -1 then
    .keep (arr.setNodes (arr.nodes.eraseIdx idx.toNat))
  else .fail

/-- xmp/node.go:566-621: the last segment addresses a language.  (The cases with an empty language at
597 and 616 can not be reached.)  The second component is the absence of an error. -/
def setAltEnd (arr : Node) (lang value : Str) (flags : SyncFlags) : Node × Bool :=
  let li := (liNode.addStringAttr "xml:lang".toList lang).setValue value
  if has flags UNIQUE ∧ value ≠ [] then
    if arr.nodes.any (fun v => hasLang lang v && decide (v.value = value)) then (arr, true)
    else (arr.appendNode li, true)
  else if has flags APPEND ∧ value ≠ [] then (arr.appendNode li, true)
  else if has flags (REPLACE ||| CREATE) ∧ value ≠ [] then
    match arr.nodes.find? (hasLang lang) with
    | some v => (arr.setNodes (replaceFirst (hasLang lang) (v.setValue value) arr.nodes), true)
    | none => (arr, true)
  else if has flags DELETE ∧ value = [] then
    (arr.setNodes (removeFirst (hasLang lang) arr.nodes), true)
  else (arr, false)

/-- xmp/node.go:484-555: the segment addresses the array below `node`, or an element of it.  `recur` is
the call of line 509 on the element, `plen` the number of remaining path segments. -/
def setArray (value : Str) (flags : SyncFlags) (recur : Node → Node × Bool) (plen : Nat) (idx : Int)
    (node : Node) : Node × Bool :=
  let key := if (NodeList.findNodeByName node.nodes "Seq".toList).isSome then "Seq".toList else "Bag".toList
  let found := NodeList.findNodeByName node.nodes key
  if found.isSome = false ∧ has flags CREATE = false then (node, false)
  else
    let arr := found.getD (Node.new ⟨[], "rdf:Seq".toList⟩)
    let put (x : Node) : Node :=
      if found.isSome then node.setNodes (replaceFirst (fun v => v.name = key) x node.nodes)
      else node.addNode x
    if plen > 0 then
      let i := if idx < 0 then 0 else idx.toNat
      if arr.nodes.length ≤ i ∧ has flags (CREATE ||| APPEND) = false ∧ value ≠ [] then (put arr, false)
      else
        let lis := extendTo i arr.nodes
        match lis[i]? with
        | none => (put arr, false)
        | some li => (put (arr.setNodes (lis.set i (recur li).1)), (recur li).2)
    else
      match setArrayEnd arr idx value flags with
      | .keep a => (put a, true)
      | .drop =>
        (if found.isSome then node.setNodes (removeFirst (fun v => v.name = key) node.nodes) else node, true)
      | .fail => (put arr, false)

/-- xmp/node.go:557-621: the segment addresses a language below `node`. -/
def setAlt (value : Str) (flags : SyncFlags) (lang : Str) (node : Node) : Node × Bool :=
  match NodeList.findNodeByName node.nodes "Alt".toList with
  | none =>
    if has flags (CREATE ||| APPEND) = false then (node, false)
    else
      let res := setAltEnd (Node.new ⟨[], "rdf:Alt".toList⟩) lang value flags
      (node.addNode res.1, res.2)
  | some arr =>
    let res := setAltEnd arr lang value flags
    (node.setNodes (replaceFirst (fun v => v.name = "Alt".toList) res.1 node.nodes), res.2)

/-- xmp/node.go:483-642: what happens to the child `node` a segment addresses. -/
def setChild (r : Registry) (value : Str) (flags : SyncFlags) (recur : Node → Node × Bool) (plen : Nat)
    (idx : Int) (lang : Str) (node : Node) : Node × Bool :=
  if idx > -1 ∨ (node.isArray r = true ∧ lang = []) then setArray value flags recur plen idx node
  else if lang ≠ [] then setAlt value flags lang node
  else if plen > 0 then recur node
  else if has flags (REPLACE ||| CREATE) ∧ value ≠ [] then (node.setValue value, true)
  else if has flags DELETE ∧ value = [] then ((node.setValue value).setNodes [], true)
  else (node, false)

/-- xmp/node.go:443-643 `SetPath`: the changed node and whether there was no error.  The first argument
bounds the recursion as in `getPathF`.  Lines 459-469 update a copy of the attribute list, so the
attribute itself stays as it is. -/
def Node.setPathF (r : Registry) (value : Str) (flags : SyncFlags) : Nat → Node → Path → Node × Bool
  | 0, n, _ => (n, false)
  | f + 1, n, p =>
    let path := (Path.popFront p).2
    match parsePathSegment (Path.popFront p).1 with
    | (name, idx, lang) =>
      let child := setChild r value flags (fun x => Node.setPathF r value flags f x path) path.len idx lang
      if idx < -1 then (n, false)
      else if name = [] ∧ idx = -1 ∧ lang = [] then
        (if path.len = 0 then n.setValue value else n, true)
      else if n.getAttr [] (stripPrefix name) ≠ [] ∧
          ((has flags REPLACE ∧ value ≠ []) ∨ (has flags DELETE ∧ value = [])) then (n, true)
      else
        match NodeList.findNodeByName n.nodes (stripPrefix name) with
        | some node =>
          (n.setNodes (replaceFirst (fun v => v.name = stripPrefix name) (child node).1 n.nodes), (child node).2)
        | none =>
          if has flags CREATE ∧ value ≠ [] then
            let loc := if name ≠ [] ∧ hasNsPrefix name = false then path.namespacePrefix ++ [':'] ++ name else name
            (n.addNode (child (Node.new ⟨[], loc⟩)).1, (child (Node.new ⟨[], loc⟩)).2)
          else (n, false)

/-- xmp/node.go:443-643 `SetPath`. -/
def Node.setPath (r : Registry) (n : Node) (p : Path) (value : Str) (flags : SyncFlags) : Node × Bool :=
  Node.setPathF r value flags (p.len + 1) n p

end Xmp
