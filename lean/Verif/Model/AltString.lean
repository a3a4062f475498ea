import Verif.Model.GoStr

/-! Model of language alternatives (xmp/array.go, `AltItem` and `AltString`). -/

namespace Xmp

open GoStr

/-- xmp/array.go:46-50 `AltItem`. -/
structure AltItem where
  value : Str
  lang : Str := []
  isDefault : Bool := false
deriving DecidableEq, Repr, Inhabited

/-- xmp/array.go:52-57 `AltItem.UnmarshalText`. -/
def AltItem.ofText (data : Str) : AltItem := { value := data, lang := [], isDefault := true }

/-- xmp/array.go:59-64 `AltItem.GetLang`. -/
def AltItem.getLang (x : AltItem) : Str :=
  if x.lang = [] ∧ x.isDefault = true then "x-default".toList else x.lang

/-- xmp/array.go:66 `AltString`.  A nil slice and an empty slice are both `[]`.  Slices that share
their backing array with other slices are not modelled. -/
abbrev AltString := List AltItem

namespace AltString

/-- The loop of xmp/array.go:102-110: keep the first default, clear the later ones.  `idx` is the
position of the default found so far (Go: -1 for none). -/
def clearLater (i : Nat) (idx : Option Nat) : AltString → Option Nat × AltString
  | [] => (idx, [])
  | x :: xs =>
    if x.isDefault then
      match idx with
      | some k => let r := clearLater (i + 1) (some k) xs; (r.1, { x with isDefault := false } :: r.2)
      | none => let r := clearLater (i + 1) (some i) xs; (r.1, x :: r.2)
    else let r := clearLater (i + 1) idx xs; (r.1, x :: r.2)

/-- `a[i], a[j] = a[j], a[i]` for indexes in range. -/
def swap (a : AltString) (i j : Nat) : AltString :=
  match a[i]?, a[j]? with
  | some x, some y => (a.set i y).set j x
  | _, _ => a

/-- xmp/array.go:98-117 `EnsureDefault`.  `none` is the run time panic of line 112, where the index
is -1 when no item is marked as default. -/
def ensureDefault (a : AltString) : Option AltString :=
  if a.length > 1 then
    match clearLater 0 none a with
    | (none, _) => none
    | (some idx, b) => some (if idx ≠ 0 then swap b idx 0 else b)
  else some (a.map (fun x => { x with isDefault := true }))

/-- An argument of xmp/array.go:72 `NewAltString`: an `AltItem` or a string (or `fmt.Stringer`, given
by its text). -/
inductive Arg where
  | item (x : AltItem)
  | str (s : Str)

/-- Loop body of xmp/array.go:77-92. -/
def Arg.toItems : Arg → AltString
  | .item x => if x.value ≠ [] then [x] else []
  | .str s => if s ≠ [] then [{ value := s }] else []

/-- xmp/array.go:72-95 `NewAltString`; `none` is a panic. -/
def new (items : List Arg) : Option AltString :=
  if items.length = 0 then some [] else ensureDefault (items.flatMap Arg.toItems)

/-- xmp/array.go:119-126 `Default`. -/
def default (a : AltString) : Str :=
  match a.find? (·.isDefault) with
  | some v => v.value
  | none => []

/-- xmp/array.go:128-135 `Index`; `none` is -1. -/
def index (a : AltString) (lang : Str) : Option Nat := a.findIdx? (fun v => v.lang = lang)

/-- xmp/array.go:137-147 `Get`. -/
def get (a : AltString) (lang : Str) : Str :=
  if lang = [] then a.default
  else match a.find? (fun v => v.lang = lang) with
    | some v => v.value
    | none => []

/-- xmp/array.go:149-166 `AddDefault`. -/
def addDefault (a : AltString) (lang value : Str) : AltString :=
  if value = [] then a
  else { value := value, lang := lang, isDefault := true } ::
    a.map (fun x => { x with isDefault := false })

/-- xmp/array.go:179-189 `Add`; `none` is a panic. -/
def add (a : AltString) (lang value : Str) : Option AltString :=
  if value = [] then some a
  else ensureDefault (a ++ [{ value := value, lang := lang, isDefault := false }])

/-- xmp/array.go:168-177 `AddUnique`; `none` is a panic. -/
def addUnique (a : AltString) (lang value : Str) : Option (AltString × Bool) :=
  if value = [] then some (a, false)
  else match a.index lang with
    | some idx =>
      if (a[idx]?).map (·.value) = some value then some (a, false)
      else (a.add lang value).map (·, true)
    | none => (a.add lang value).map (·, true)

/-- xmp/array.go:191-200 `Set`; `none` is a panic. -/
def set (a : AltString) (lang value : Str) : Option AltString :=
  if value = [] then some a
  else match a.index lang with
    | some i => some (a.modify i (fun x => { x with value := value }))
    | none => a.add lang value

/-- xmp/array.go:202-214 `RemoveLang`; `none` is a panic. -/
def removeLang (a : AltString) (lang : Str) : Option AltString :=
  match a.index lang with
  | some idx => ensureDefault (a.take idx ++ a.drop (idx + 1))
  | none => some a

/-- The inner loop of xmp/array.go:233-239: the first index other than `i` with the given value. -/
def dupIndex (i : Nat) (val : Str) (j : Nat) : AltString → Option Nat
  | [] => none
  | x :: xs => if i ≠ j ∧ val = x.value then some j else dupIndex i val (j + 1) xs

/-- xmp/array.go:229-247: merge the default with a language of the same text. -/
def mergeDefault (x : AltString) : AltString :=
  match x.findIdx? (·.isDefault) with
  | none => x
  | some i =>
    match x[i]? with
    | none => x
    | some v =>
      match dupIndex i v.value 0 x with
      | none => x
      | some j =>
        let y := x.modify i (fun it => { it with lang := ((x[j]?).map (·.lang)).getD it.lang })
        y.take j ++ y.drop (j + 1)

end AltString
end Xmp
