import Verif.Model.Path

/-! Model of namespaces, the namespace registry and namespace filters
(xmp/namespace.go, xmp/registry.go, xmp/filter.go). -/

namespace Xmp

open GoStr

/-- A Go `map[string]V`.  The position of an entry in the list plays the role of Go's unspecified
iteration order; `get`, `set` and `del` are the only operations that are order independent. -/
abbrev GoMap (V : Type) := List (Str × V)

namespace GoMap

/-- `m[k]` with the `ok` flag. -/
def get {V : Type} (m : GoMap V) (k : Str) : Option V := (m.find? (fun e => e.1 = k)).map (·.2)

/-- `delete(m, k)`. -/
def del {V : Type} (m : GoMap V) (k : Str) : GoMap V := m.filter (fun e => e.1 ≠ k)

/-- `m[k] = v`. -/
def set {V : Type} (m : GoMap V) (k : Str) (v : V) : GoMap V := (k, v) :: m.del k

end GoMap

/-- xmp/namespace.go:35-39 `Namespace`.  The factory is represented by a number naming the factory
function (`none` is a nil factory).  Go uses pointers to namespaces that are never modified, so two
namespaces are the same when their contents are. -/
structure Namespace where
  name : Str
  uri : Str
  factory : Option Nat := none
deriving DecidableEq, Repr

/-- xmp/namespace.go:42 `NamespaceGroup`; the empty string is `NoMetadata`. -/
abbrev Group := Str

/-- xmp/namespace.go:57-78 `ParseNamespaceGroup`. -/
def parseGroup (s : Str) : Group :=
  if s = "xmp".toList then "xmp".toList
  else if s = "image".toList then "image".toList
  else if s = "music".toList then "music".toList
  else if s = "movie".toList then "movie".toList
  else if s = "sound".toList then "sound".toList
  else if s = "camera".toList then "camera".toList
  else if s = "vfx".toList then "vfx".toList
  else if s = "rights".toList then "rights".toList
  else []

/-- xmp/registry.go:41-46 `Registry`.  The mutex is not modelled: every method holds it for its whole
body, so methods are atomic steps. -/
structure Registry where
  nsNameMap : GoMap Namespace := []
  nsUriMap : GoMap Namespace := []
  groupMap : GoMap (List Namespace) := []

namespace Registry

/-- Loop body of xmp/registry.go:71-80. -/
def addGroup (ns : Namespace) (m : GoMap (List Namespace)) (v : Group) : GoMap (List Namespace) :=
  if v ≠ [] then
    match m.get v with
    | none => m.set v [ns]
    | some g => m.set v (g ++ [ns])
  else m

/-- xmp/registry.go:66-81 `RegisterNamespace`. -/
def register (r : Registry) (ns : Namespace) (groups : List Group) : Registry :=
  { nsNameMap := r.nsNameMap.set ns.name ns
    nsUriMap := r.nsUriMap.set ns.uri ns
    groupMap := groups.foldl (addGroup ns) r.groupMap }

/-- xmp/registry.go:83-92 `GetGroupNamespaces`; `none` is the error. -/
def getGroupNamespaces (r : Registry) (g : Group) : Option (List Namespace) := r.groupMap.get g

/-- xmp/registry.go:94-101 `GetNamespace`; `none` is the error. -/
def getNamespace (r : Registry) (pfx : Str) : Option Namespace := r.nsNameMap.get pfx

/-- xmp/registry.go:103-110 `GetPrefix`. -/
def getPrefix (r : Registry) (uri : Str) : Str :=
  match r.nsUriMap.get uri with
  | some ns => ns.name
  | none => []

/-- xmp/registry.go:112-118 `Short`. -/
def short (r : Registry) (uri name : Str) : Str :=
  let pre := r.getPrefix uri
  if pre ≠ [] then join [':'] [pre, name] else name

/-- xmp/registry.go:120-128 `Namespaces`, in map order. -/
def namespaces (r : Registry) : List Namespace := r.nsUriMap.map (·.2)

/-- xmp/registry.go:130-138 `Prefixes`, in map order. -/
def prefixes (r : Registry) : List Str := r.nsNameMap.map (·.1)

/-- xmp/namespace.go:80-83 `NamespaceGroup.Namespaces` (the error is dropped, leaving nil). -/
def groupList (r : Registry) (g : Group) : List Namespace := (r.getGroupNamespaces g).getD []

/-- xmp/namespace.go:85-92 `NamespaceGroup.Contains`. -/
def groupContains (r : Registry) (g : Group) (ns : Namespace) : Bool :=
  (r.groupList g).any (fun v => v.name = ns.name)

/-- xmp/namespace.go:94-101 `NamespaceGroupList.Contains`. -/
def groupListContains (r : Registry) (l : List Group) (ns : Namespace) : Bool :=
  l.any (fun g => r.groupContains g ns)

end Registry

/-- xmp/namespace.go:168-178 `NamespaceList.Contains`; the nil namespace is `none`. -/
def NamespaceList.contains (l : List Namespace) : Option Namespace → Bool
  | none => false
  | some ns => l.any (fun v => v.name = ns.name)

/-- xmp/namespace.go:180-190 `NamespaceList.ContainsName`. -/
def NamespaceList.containsName (l : List Namespace) (n : Str) : Bool :=
  if n = [] then false else l.any (fun v => v.name = n)

/-- The loop of xmp/namespace.go:192-205 `RemoveDups` with the set of URIs found so far. -/
def NamespaceList.removeDupsFrom (found : List Str) : List Namespace → List Namespace
  | [] => []
  | v :: vs =>
    if v.uri ∈ found then removeDupsFrom found vs else v :: removeDupsFrom (v.uri :: found) vs

/-- xmp/namespace.go:192-205 `RemoveDups` (in Go the receiver is compacted in place). -/
def NamespaceList.removeDups (l : List Namespace) : List Namespace := removeDupsFrom [] l

/-- xmp/filter.go:23-26 `Filter`. -/
structure Filter where
  incl : List Namespace := []
  excl : List Namespace := []
deriving DecidableEq, Repr

namespace Filter

/-- Lookup of one word of a filter: group first, then registered prefix
(xmp/filter.go:47-57, 62-72). `none` if it is neither. -/
def lookup (r : Registry) (v : Str) : Option (List Namespace) :=
  if parseGroup v ≠ [] then some (r.groupList (parseGroup v))
  else (r.getNamespace v).map (fun ns => [ns])

/-- One iteration of the loop xmp/filter.go:40-74. -/
def strictStep (r : Registry) (f : Filter) (v : Str) : Option Filter :=
  match v with
  | [] => some f
  | '-' :: w => (lookup r w).map (fun l => { f with excl := f.excl ++ l })
  | '+' :: w => (lookup r w).map (fun l => { f with incl := f.incl ++ l })
  | w => (lookup r w).map (fun l => { f with incl := f.incl ++ l })

/-- xmp/filter.go:35-76 `ParseFilterStrict`; `none` is an error. -/
def parseStrict (r : Registry) (s : Str) : Option Filter :=
  if s.length = 0 then some {} else (split ',' s).foldlM (strictStep r) {}

/-- Lookup with the fallback to an unregistered namespace (xmp/filter.go:99, 114). -/
def lookupLenient (r : Registry) (v : Str) : List Namespace :=
  (lookup r v).getD [{ name := v, uri := [] }]

/-- One iteration of the loop xmp/filter.go:83-117. -/
def lenientStep (r : Registry) (f : Filter) (v : Str) : Filter :=
  match v with
  | [] => f
  | '-' :: w => { f with excl := f.excl ++ lookupLenient r w }
  | '+' :: w => { f with incl := f.incl ++ lookupLenient r w }
  | ' ' :: w => { f with incl := f.incl ++ lookupLenient r w }
  | w => { f with incl := f.incl ++ lookupLenient r w }

/-- xmp/filter.go:78-119 `ParseFilter`. -/
def parse (r : Registry) (s : Str) : Filter :=
  if s.length = 0 then {} else (split ',' s).foldl (lenientStep r) {}

/-- xmp/filter.go:127-136 `Filter.String`. -/
def toStr (f : Filter) : Str :=
  join [','] (f.incl.map (fun v => '+' :: v.name) ++ f.excl.map (fun v => '-' :: v.name))

end Filter
end Xmp
