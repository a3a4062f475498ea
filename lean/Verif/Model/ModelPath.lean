import Verif.Model.Typed
import Verif.Model.Flags

/-! Model of path access to typed models: `GetModelPath` and `SetModelPath` of xmp/path.go. -/

namespace Xmp

open GoStr SyncFlags

/-- Result of reading a path: a string, `errNotFound`, or another error. -/
inductive GetRes where
  | ok (s : Str)
  | notFound
  | err
deriving DecidableEq, Repr

/-- Result of writing a path: nil, `errNotFound`, another error, or a run-time panic. -/
inductive SetRes where
  | ok
  | notFound
  | err
  | panic
deriving DecidableEq, Repr

/-- xmp/path.go:387-434: return the text of a value. -/
def leafRes (ty : Ty) (v : Val) : GetRes :=
  match leafText ty v with
  | none => .err
  | some none => .ok []
  | some (some s) => .ok s

/-- xmp/path.go:320-434 on the dereferenced field: read the rest of the path (`plen` segments, read by
`recur`) in a struct or array element, or return a text. -/
def getDeref (recur : Ty → Val → GetRes) (t : Ty) (v : Val) (plen : Nat) (idx : Int) (lang : Str) : GetRes :=
  match t, v with
  | .struct z infos tys, .struct vals =>
    if plen > 0 then recur (.struct z infos tys) (.struct vals)
    else leafRes (.struct z infos tys) (.struct vals)
  | .alt, .alt a => if lang ≠ [] then .ok (a.get lang) else .ok a.default
  | .slice _ ety, .slice l _ =>
    match l[idx.toNat]? with
    | none => .notFound
    | some e =>
      if plen > 0 then recur (derefVal ety e).1 (derefVal ety e).2
      else leafRes (derefVal ety e).1 (derefVal ety e).2
  | t, v => leafRes t v

/-- One field of a path, xmp/path.go:296-434: nil, omitted and empty fields read as the empty string. -/
def getField (recur : Ty → Val → GetRes) (fi : FieldInfo) (fty : Ty) (fv : Val) (plen : Nat) (idx : Int)
    (lang : Str) : GetRes :=
  match fv with
  | .nil => .ok []
  | _ =>
    if fi.omitted || (!fi.empty && isEmptyValue fty fv) then .ok []
    else getDeref recur (derefVal fty fv).1 (derefVal fty fv).2 plen idx lang

/-- xmp/path.go:281-438 `GetModelPath`.  The first argument bounds the loop, which pops one segment per
round; it is never exhausted when it exceeds the number of segments.  A nil pointer found as array element
is read as the zero value (the code also allocates it). -/
def getModelPathF : Nat → Ty → Val → Path → GetRes
  | 0, _, _, _ => .ok []
  | f + 1, ty, val, path =>
    let n := (Path.popFront path).1
    let walker := (Path.popFront path).2
    if n = [] then .ok []
    else
      let seg := parsePathSegment n
      if seg.2.1 < -1 then .err
      else
        match ty, val with
        | .struct _ infos tys, .struct vals =>
          match findField infos seg.1 with
          | none => .notFound
          | some i =>
            match infos[i]?, tys[i]?, vals[i]? with
            | some fi, some fty, some fv =>
              getField (fun t v => getModelPathF f t v walker) fi fty fv walker.len seg.2.1 seg.2.2
            | _, _, _ => .notFound
        | _, _ => .notFound

/-- `GetModelPath` on a struct value. -/
def getModelPath (ty : Ty) (val : Val) (path : Path) : GetRes := getModelPathF (path.len + 1) ty val path

/-- xmp/path.go:745-771: the language alternative branch of `SetModelPath`; flag combinations without a
case change nothing and succeed. -/
def setAltField (a : AltString) (lang value : Str) (flags : SyncFlags) : AltString × SetRes :=
  if flags.has UNIQUE && decide (value ≠ []) then
    match a.addUnique lang value with
    | none => (a, .panic)
    | some (a', true) => (a', .ok)
    | some (a', false) => (a', .err)
  else if flags.has APPEND && decide (value ≠ []) then
    match a.add lang value with
    | none => (a, .panic)
    | some a' => (a', .ok)
  else if flags.has (REPLACE ||| CREATE) && decide (value ≠ []) then
    if lang ≠ [] then
      match a.set lang value with
      | none => (a, .panic)
      | some a' => (a', .ok)
    else
      match AltString.new [.str value] with
      | none => (a, .panic)
      | some a' => (a', .ok)
  else if flags.has DELETE && decide (value = []) then
    if lang ≠ [] then
      match a.removeLang lang with
      | none => (a, .panic)
      | some a' => (a', .ok)
    else ([], .ok)
  else (a, .ok)

/-- xmp/path.go:1273-1286 `growSlice` to index `n`: elements beyond the length come from the backing
array if it is large enough, otherwise a zeroed array of capacity `max(2n, 4)` is allocated and the elements
up to the length are copied.  An index too large to be allocated (a panic of the Go runtime) is not
modelled. -/
def growSlice (ety : Ty) (n : Nat) (l spare : List Val) : List Val × List Val :=
  if l.length ≤ n then
    if l.length + spare.length ≤ n then
      (l ++ List.replicate (n + 1 - l.length) ety.zero, List.replicate (max (n * 2) 4 - (n + 1)) ety.zero)
    else (l ++ spare.take (n + 1 - l.length), spare.drop (n + 1 - l.length))
  else (l, spare)

/-- `reflect.Append` of one element: it takes the place of the first spare element, if there is one;
otherwise a backing array of twice the capacity is allocated.  Simplified: Go's runtime rounds the new
capacity up to a size class and uses a smaller factor for large arrays. -/
def appendVal (ety : Ty) (l spare : List Val) (v : Val) : List Val × List Val :=
  match spare with
  | [] => (l ++ [v], List.replicate (l.length - 1) ety.zero)
  | _ :: sp => (l ++ [v], sp)

/-- xmp/path.go:846-874: compare the text of the elements with `value`.  `none`: all elements have a
text, none is equal; `some r`: return `r` at once. -/
def uniqueCheck (ety : Ty) (value : Str) : List Val → Option SetRes
  | [] => none
  | v :: vs =>
    let d := derefVal ety v
    match leafText d.1 d.2 with
    | none => some .err
    | some none => some .ok
    | some (some s) => if value = s then some .err else uniqueCheck ety value vs

/-- A new element made from text (e.g. xmp/path.go:876-883): `none` is an error.  For an element type that
is a pointer this always fails. -/
def parseElem (ety : Ty) (value : Str) : Option Val := parseLeaf ety ety.zero value

/-- xmp/path.go:841-947: the end of a path is a slice. -/
def setSliceEnd (ety : Ty) (l spare : List Val) (idx : Int) (value : Str) (flags : SyncFlags) :
    (List Val × List Val) × SetRes :=
  if flags.has UNIQUE && decide (value ≠ []) && decide (idx = -1) then
    match uniqueCheck ety value l with
    | some r => ((l, spare), r)
    | none =>
      match parseElem ety value with
      | none => ((l, spare), .err)
      | some v => (appendVal ety l spare v, .ok)
  else if flags.has APPEND && decide (value ≠ []) && decide (idx = -1) then
    match parseElem ety value with
    | none => ((l, spare), .err)
    | some v => (appendVal ety l spare v, .ok)
  else if flags.has (REPLACE ||| CREATE) && decide (value ≠ []) && decide (idx > -1) then
    match parseElem ety value with
    | none => ((l, spare), .err)
    | some v =>
      let g := growSlice ety idx.toNat l spare
      ((g.1.set idx.toNat v, g.2), .ok)
  else if flags.has (REPLACE ||| CREATE) && decide (value ≠ []) && decide (idx = -1) then
    match parseElem ety value with
    | none => ((l, spare), .err)
    | some v => (([v], []), .ok)
  else if flags.has DELETE && decide (value = []) && decide (idx > -1) then
    if l.length ≤ idx.toNat then ((l, spare), .err)
    else if idx.toNat = 0 then ((l.drop 1, spare), .ok)
    else if idx.toNat = l.length - 1 then ((l.take idx.toNat, l.drop idx.toNat ++ spare), .ok)
    else ((l.take idx.toNat ++ l.drop (idx.toNat + 1), []), .ok)
  else if flags.has DELETE && decide (value = []) && decide (idx = -1) then (([], []), .ok)
  else ((l, spare), .err)

/-- xmp/path.go:953-969: the end of a path is no array. -/
def setSimple (ty : Ty) (v : Val) (value : Str) (flags : SyncFlags) : Val × SetRes :=
  if !flags.has REPLACE && decide (value ≠ []) && !isEmptyValue ty v then (v, .err)
  else
    match parseLeaf ty v value with
    | none => (v, .err)
    | some v' => (v', .ok)

/-- One field of a path, xmp/path.go:559-971, on the dereferenced field. -/
def setField (recur : Ty → Val → Val × SetRes) (fty : Ty) (fv : Val) (plen : Nat) (idx : Int)
    (lang value : Str) (flags : SyncFlags) : Val × SetRes :=
  match fty, fv with
  | .struct z infos tys, .struct vals =>
    if plen > 0 then recur (.struct z infos tys) (.struct vals)
    else setSimple (.struct z infos tys) (.struct vals) value flags
  | .alt, .alt a =>
    let r := setAltField a lang value flags
    (.alt r.1, r.2)
  | .slice _ ety, .slice l spare =>
    if plen > 0 then
      let i := idx.toNat
      if l.length ≤ i then
        if flags.has DELETE && decide (value = []) then (fv, .ok)
        else if !flags.has (CREATE ||| APPEND) then (fv, .err)
        else
          let g := growSlice ety i l spare
          let d := derefVal ety ety.zero
          let r := match d.1 with
            | .struct z infos tys => recur (.struct z infos tys) d.2
            | _ => (d.2, .notFound)
          (.slice (g.1.set i (rewrap ety r.1)) g.2, r.2)
      else
        match l[i]? with
        | none => (fv, .err)
        | some e =>
          let d := derefVal ety e
          let r := recur d.1 d.2
          (.slice (l.set i (rewrap ety r.1)) spare, r.2)
    else
      let r := setSliceEnd ety l spare idx value flags
      (.slice r.1.1 r.1.2, r.2)
  | t, v => setSimple t v value flags

/-- xmp/path.go:556-974, the loop of `SetModelPath`: the value after the call (also after an error) and
the result.  Nil pointers on the way are allocated, and stay allocated when the call fails. -/
def setModelPathF (value : Str) (flags : SyncFlags) : Nat → Ty → Val → Path → Val × SetRes
  | 0, _, val, _ => (val, .ok)
  | f + 1, ty, val, path =>
    let n := (Path.popFront path).1
    let walker := (Path.popFront path).2
    if n = [] then (val, .ok)
    else
      let seg := parsePathSegment n
      if seg.2.1 < -1 then (val, .err)
      else
        match ty, val with
        | .struct _ infos tys, .struct vals =>
          match findField infos seg.1 with
          | none => (val, .notFound)
          | some i =>
            match tys[i]?, vals[i]? with
            | some fty, some fv =>
              let d := derefVal fty fv
              let r := setField (fun t v => setModelPathF value flags f t v walker) d.1 d.2 walker.len
                seg.2.1 seg.2.2 value flags
              (.struct (vals.set i (rewrap fty r.1)), r.2)
            | _, _ => (val, .notFound)
        | _, _ => (val, .notFound)

/-- xmp/path.go:543-975 `SetModelPath` on a struct value. -/
def setModelPath (ty : Ty) (val : Val) (path : Path) (value : Str) (flags : SyncFlags) : Val × SetRes :=
  let flags := if flags = 0 then DEFAULT else flags
  if !path.isXmpPath then (val, .err)
  else setModelPathF value flags (path.len + 1) ty val path

end Xmp
