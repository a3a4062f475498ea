import Verif.Model.GoStr
import Verif.Model.Flags

/-! Model of the name helpers of xmp/namespace.go and of the path algebra of xmp/path.go. -/

namespace Xmp

open GoStr

/-- xmp/namespace.go:207-212 `stripPrefix`. -/
def stripPrefix (n : Str) : Str :=
  match indexChar ':' n with
  | some i => n.drop (i + 1)
  | none => n

/-- xmp/namespace.go:214-219 `getPrefix`. -/
def getPrefix (n : Str) : Str :=
  match indexChar ':' n with
  | some i => n.take i
  | none => n

/-- xmp/namespace.go:222-224 `hasPrefix`: a colon at a positive index. -/
def hasNsPrefix (n : Str) : Bool :=
  match indexChar ':' n with
  | some i => i > 0
  | none => false

/-- xmp/namespace.go:129-134 `Namespace.Expand`, for a namespace with the given name. -/
def expandName (name localName : Str) : Str :=
  if localName = [] then name else join [':'] [name, localName]

/-- xmp/path.go:26 `type Path string`. -/
abbrev Path := Str

namespace Path

/-- xmp/path.go:116-118 `NewPath`. -/
def new (pfx : Str) (segments : List Str) : Path := pfx ++ [':'] ++ join ['/'] segments

/-- xmp/path.go:121-123 `IsXmpPath`. -/
def isXmpPath (x : Path) : Bool := (indexChar ':' x).isSome

/-- xmp/path.go:125-130 `NamespacePrefix`. -/
def namespacePrefix (x : Path) : Str :=
  match indexChar ':' x with
  | some i => x.take i
  | none => x

/-- xmp/path.go:151-160 `Len`. -/
def len (x : Path) : Nat :=
  match indexChar ':' x with
  | some i =>
    let s := trimPrefix (x.drop (i + 1)) ['/']
    if s.length > 0 then countChar s '/' + 1 else 0
  | none => 0

/-- xmp/path.go:162-171 `Fields` (`nil` is the empty list). -/
def fields (x : Path) : List Str :=
  match indexChar ':' x with
  | some i =>
    let y := trimPrefix (x.drop (i + 1)) ['/']
    if y.length > 0 then split '/' y else []
  | none => []

/-- xmp/path.go:173-179 `AppendIndex`. -/
def appendIndex (x : Path) (i : Int) : Path :=
  if GoStr.hasSuffix x [']'] then x ++ ['/', '['] ++ itoa i ++ [']'] else x ++ ['['] ++ itoa i ++ [']']

/-- xmp/path.go:181-187 `AppendIndexString`. -/
def appendIndexString (x : Path) (s : Str) : Path :=
  if GoStr.hasSuffix x [']'] then x ++ ['/', '['] ++ s ++ [']'] else x ++ ['['] ++ s ++ [']']

/-- xmp/path.go:189-193 `Push`. -/
def push (x : Path) (segment : List Str) : Path := new x.namespacePrefix (x.fields ++ segment)

/-- xmp/path.go:195-205 `Pop`. -/
def pop (x : Path) : Str × Path :=
  match x.fields.reverse with
  | [] => ([], x)
  | l :: r => (l, new x.namespacePrefix r.reverse)

/-- xmp/path.go:207-228 `PopFront`: a first segment with its own prefix switches the namespace. -/
def popFront (x : Path) : Str × Path :=
  match x.fields with
  | [] => ([], x)
  | seg :: rest =>
    if hasNsPrefix seg then (stripPrefix seg, new (getPrefix seg) rest)
    else (seg, new x.namespacePrefix rest)

/-- xmp/path.go:230-240 `PeekNamespacePrefix`. -/
def peekNamespacePrefix (x : Path) : Str :=
  match x.fields with
  | [] => x.namespacePrefix
  | f :: _ => if hasNsPrefix f then getPrefix f else x.namespacePrefix

/-- xmp/path.go:242-249 `Path.UnmarshalText`. -/
def unmarshalText (data : Str) : Option Path := if isXmpPath data then some data else none

end Path

/-- xmp/path.go:1255-1271 `parsePathSegment`: name, index (-1 if none), language. -/
def parsePathSegment (name : Str) : Str × Int × Str :=
  match indexChar '[' name with
  | some k =>
    if k > 0 ∧ name.length > k + 1 then
      let s := trimSuffix (name.drop (k + 1)) [']']
      if s.length = 0 then (name.take k, 0, [])
      else
        match atoi s with
        | some j => (name.take k, j, [])
        | none => (name.take k, -1, s)
    else (name, -1, [])
  | none => (name, -1, [])

/-- xmp/path.go:28-33 `PathValue`. -/
structure PathValue where
  path : Path
  ns : Str := []
  value : Str
  flags : SyncFlags := 0
deriving DecidableEq, Repr

/-- xmp/path.go:35 `PathValueList`. -/
abbrev PathValueList := List PathValue

namespace PathValueList

/-- xmp/path.go:37-42 `Add`. -/
def add (x : PathValueList) (p : Path) (v : Str) : PathValueList :=
  if v = [] then x else x ++ [{ path := p, value := v }]

/-- xmp/path.go:44-49 `AddFlags`. -/
def addFlags (x : PathValueList) (p : Path) (v : Str) (f : SyncFlags) : PathValueList :=
  if v = [] then x else x ++ [{ path := p, value := v, flags := f }]

/-- xmp/path.go:51-58 `Find` (returns a copy in Go). -/
def find (x : PathValueList) (p : Path) : Option PathValue := List.find? (fun v => v.path = p) x

/-- The loop of `Unique` with the variable `last`. -/
def uniqueFrom (last : Path) : PathValueList → PathValueList
  | [] => []
  | v :: vs => if last ≠ v.path then v :: uniqueFrom v.path vs else uniqueFrom last vs

/-- xmp/path.go:61-71 `Unique`: `last` starts as the empty path. -/
def unique (x : PathValueList) : PathValueList := uniqueFrom [] x

/-- First loop of `Diff` (xmp/path.go:81-90). -/
def diffOld (y : PathValueList) : PathValueList → PathValueList → PathValueList
  | acc, [] => acc
  | acc, xv :: xs =>
    match find y xv.path with
    | none => diffOld y (addFlags acc xv.path xv.value SyncFlags.DELETE) xs
    | some yv =>
      if yv.value ≠ xv.value then
        diffOld y (addFlags acc xv.path xv.value SyncFlags.REPLACE) xs
      else diffOld y acc xs

/-- Second loop of `Diff` (xmp/path.go:91-96). -/
def diffNew (x : PathValueList) : PathValueList → PathValueList → PathValueList
  | acc, [] => acc
  | acc, yv :: ys =>
    match find x yv.path with
    | none => diffNew x (addFlags acc yv.path yv.value SyncFlags.CREATE) ys
    | some _ => diffNew x acc ys

/-- xmp/path.go:73-98 `Diff`. -/
def diff (x y : PathValueList) : PathValueList :=
  if x.length = 0 then y
  else if y.length = 0 then x
  else diffNew x (diffOld y [] x) y

/-- xmp/path.go:104 `byPath.Less`; Go compares strings byte-wise. -/
def less (a b : PathValue) : Bool := decide (a.path < b.path)

end PathValueList
end Xmp
