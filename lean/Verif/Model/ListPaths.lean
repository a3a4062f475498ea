import Verif.Model.DocPath
import Verif.Model.TypedXmp

/-! Model of the path listings: `Document.ListPaths`, `ListModelPaths` (xmp/path.go:977-1253) and `Node.ListPaths`
(xmp/node.go:645-714).

`sort.Sort(byPath(l))` is a parameter `sort`: Go does not say how entries with equal paths are arranged.  The hooks
`SyncToXMP` of models are taken to do nothing.  Types are those of `Model/Typed.lean` (no maps, no extensions). -/

namespace Xmp

open GoStr

/-- xmp/path.go:1031-1044: is a field listed at all? -/
def fieldListed (f : FieldInfo) (t : Ty) (v : Val) : Bool :=
  !v.isNil && !f.omitted && (f.empty || !isEmptyValue t v)

/-- xmp/path.go:1046-1054: the path below which a field is listed. -/
def listBase (path : Path) (f : FieldInfo) : Path :=
  if path.len = 0 ∧ path.namespacePrefix ≠ getPrefix f.name then Path.new (getPrefix f.name) [] else path

/-- xmp/path.go:1056-1059: the name of a field in a path. -/
def listName (path : Path) (f : FieldInfo) : Str :=
  if hasNsPrefix f.name = true ∧ getPrefix f.name ≠ path.namespacePrefix then f.name else stripPrefix f.name

/-- `pvl.Add` of a text (xmp/path.go:1160-1164, 1200-1204): `none` is an error; `some none` means that the function
returns at once with a nil list and no error. -/
def listText (path : Path) : Option (Option Str) → Option (Option PathValueList)
  | none => none
  | some none => some none
  | some (some s) => some (some (PathValueList.add [] path s))

/-- Go on with a further list (`pvl = append(pvl, l...)`), unless the function has returned before. -/
def listSeq : Option (Option PathValueList) → Option (Option PathValueList) → Option (Option PathValueList)
  | some (some l), some (some l') => some (some (l ++ l'))
  | some (some _), r => r
  | r, _ => r

/-- xmp/path.go:1251-1252: the end of `listPaths`; a nil list is an empty list for the caller. -/
def listEnd (sort : PathValueList → PathValueList) : Option (Option PathValueList) → Option PathValueList
  | none => none
  | some none => some []
  | some (some l) => some (sort l)

/-- xmp/path.go:1005-1253 `listPaths` on a struct: `e` says whether it counts as empty, `r` is the result of the loop over
its fields. -/
def listStruct (sort : PathValueList → PathValueList) (e : Bool) (r : Option (Option PathValueList)) : Option PathValueList :=
  if e then some [] else listEnd sort r

/-- The loop xmp/path.go:1138-1186 over the elements of an array, from index `i` on. -/
def listItems (item : Val → Path → Option (Option PathValueList)) (path : Path) : Nat → List Val → Option (Option PathValueList)
  | _, [] => some (some [])
  | i, v :: vs => listSeq (item v (path.appendIndex i)) (listItems item path (i + 1) vs)

/-- What the caller of a recursive `listPaths` adds. -/
def listSub : Option PathValueList → Option (Option PathValueList)
  | none => none
  | some l => some (some l)

mutual
/-- The loop xmp/path.go:1028-1249 over the fields. -/
def listFields (sort : PathValueList → PathValueList) : List Ty → List FieldInfo → List Val → Path → Option (Option PathValueList)
  | t :: ts, f :: fs, v :: vs, path =>
    if fieldListed f t v then
      let base := listBase path f
      listSeq (listField sort t v (base.push [listName base f])) (listFields sort ts fs vs base)
    else listFields sort ts fs vs path
  | _, _, _, _ => some (some [])
/-- xmp/path.go:1061-1248: one field; `path` includes its name. -/
def listField (sort : PathValueList → PathValueList) : Ty → Val → Path → Option (Option PathValueList)
  | .ptr t, v, path =>
    match v with
    | .ptr x => listField sort t x path
    | _ => some (some [])
  | .alt, v, path =>
    match v with
    | .alt a => some (some (a.foldl (fun l x => PathValueList.add l (path.appendIndexString x.getLang) x.value) []))
    | _ => none
  | .slice _ t, v, path =>
    match v with
    | .slice items _ => listItems (fun v path => listItem sort t v path) path 0 items
    | _ => none
  | .struct z infos tys, v, path =>
    match v with
    | .struct vals =>
      listSub (listStruct sort (isEmptyValue (.struct z infos tys) (.struct vals)) (listFields sort tys infos vals path))
    | _ => some (some [])
  | .text c, v, path => listText path (leafText (.text c) v)
  | .int b, v, path => listText path (leafText (.int b) v)
  | .uint b, v, path => listText path (leafText (.uint b) v)
  | .bool, v, path => listText path (leafText .bool v)
  | .str, v, path => listText path (leafText .str v)
  | .bytes, v, path => listText path (leafText .bytes v)
/-- xmp/path.go:1139-1185: one element of an array.  Elements that are themselves slices (byte slices, language
alternatives, arrays) have no fields and are not listed. -/
def listItem (sort : PathValueList → PathValueList) : Ty → Val → Path → Option (Option PathValueList)
  | .ptr t, v, path =>
    match v with
    | .ptr x => listItem sort t x path
    | _ => listItem sort t t.zero path
  | .struct z infos tys, v, path =>
    match v with
    | .struct vals =>
      listSub (listStruct sort (isEmptyValue (.struct z infos tys) (.struct vals)) (listFields sort tys infos vals path))
    | _ => some (some [])
  | .text c, v, path => listText path (leafText (.text c) v)
  | .int b, v, path => listText path (leafText (.int b) v)
  | .uint b, v, path => listText path (leafText (.uint b) v)
  | .bool, v, path => listText path (leafText .bool v)
  | .str, v, path => listText path (leafText .str v)
  | .bytes, _, _ => some (some [])
  | .alt, _, _ => some (some [])
  | .slice _ _, _, _ => some (some [])
end

/-- xmp/path.go:1005-1253 `listPaths`; `none` is an error.  Values that are no structs have no fields. -/
def listPaths (sort : PathValueList → PathValueList) : Ty → Val → Path → Option PathValueList
  | .struct z infos tys, .struct vals, path =>
    listStruct sort (isEmptyValue (.struct z infos tys) (.struct vals)) (listFields sort tys infos vals path)
  | _, _, _ => some []

/-- xmp/path.go:1001-1003 `ListModelPaths`; a model without namespaces makes the code panic. -/
def listModelPaths (sort : PathValueList → PathValueList) (m : Mdl) : Res PathValueList :=
  match m.nss with
  | [] => .panic
  | ns :: _ => Res.ofOption (listPaths sort m.ty m.val (Path.new ns.name []))

/-- The name under which a node is listed below a path (xmp/node.go:652-655, 695-698). -/
def nodeListName (r : Registry) (path : Path) (v : Node) : Str :=
  if v.namespace_ ≠ path.namespacePrefix then v.fullName r else v.name

/-- The name under which an attribute is listed (xmp/node.go:682-685). -/
def attrListName (path : Path) (a : Attr) : Str :=
  if hasNsPrefix a.name.loc = true ∧ getPrefix a.name.loc = path.namespacePrefix then stripPrefix a.name.loc else a.name.loc

/-- The language under which an item of an alternative is listed (xmp/node.go:665-668). -/
def liLang (li : Node) : Str :=
  match li.getAttr [] "lang".toList with
  | a :: _ => a.value
  | [] => "x-default".toList

mutual
/-- xmp/node.go:645-714 `ListPaths`, which never fails. -/
def Node.listPaths (r : Registry) (sort : PathValueList → PathValueList) : Node → Path → PathValueList
  | .mk n a v l, path =>
    let full := (Node.mk n a v l).fullName r
    if full = "rdf:Seq".toList ∨ full = "rdf:Bag".toList then sort (Node.listLis r sort 0 l path)
    else if full = "rdf:Alt".toList then
      sort (l.map (fun li => { path := path.pop.2.appendIndexString (liLang li), value := li.value }))
    else
      sort ((a.filter (fun x => !skipName x.name)).map (fun x => { path := path.push [attrListName path x], value := x.value }) ++
        Node.listKids r sort true l path path ++ (if v ≠ [] then [{ path := path, value := v }] else []))
/-- The loops over child nodes, xmp/node.go:651-661 and 691-704; `ctx` gives the prefix for the names, `base` is the
path that is extended. -/
def Node.listKids (r : Registry) (sort : PathValueList → PathValueList) (skip : Bool) : List Node → Path → Path → PathValueList
  | [], _, _ => []
  | x :: xs, ctx, base =>
    (if skip && skipName x.xmlName then [] else x.listPaths r sort (base.push [nodeListName r ctx x])) ++
      Node.listKids r sort skip xs ctx base
/-- The loop xmp/node.go:649-662 over the items of an array. -/
def Node.listLis (r : Registry) (sort : PathValueList → PathValueList) : Nat → List Node → Path → PathValueList
  | _, [], _ => []
  | i, .mk _ _ _ kids :: lis, path =>
    Node.listKids r sort false kids path (path.pop.2.appendIndex i) ++ Node.listLis r sort (i + 1) lis path
end

/-- xmp/path.go:984-990: the entries of the model of a top-level node. -/
def Root.listModel (sort : PathValueList → PathValueList) (r : Root) : Res PathValueList :=
  match r.model with
  | some m => listModelPaths sort m
  | none => .ok []

/-- The loop xmp/path.go:983-996 over the top-level nodes. -/
def XDoc.listRoots (env : Env) (sort : PathValueList → PathValueList) : List Root → Res PathValueList
  | [] => .ok []
  | r :: rs =>
    match r.listModel sort with
    | .ok l =>
      match XDoc.listRoots env sort rs with
      | .ok l' => .ok (l ++ r.node.listPaths env.reg sort (Path.new r.node.name []) ++ l')
      | e => e
    | e => e

/-- xmp/path.go:977-999 `ListPaths`. -/
def XDoc.listPaths (env : Env) (sort : PathValueList → PathValueList) (d : XDoc) : Res PathValueList :=
  match XDoc.listRoots env sort d.roots with
  | .ok l => .ok (PathValueList.unique (sort l))
  | e => e

end Xmp
