import Verif.Model.GoStr

/-! Model of xmp/semver.go. -/

namespace Xmp

open GoStr

/-- Two's complement wrap-around of Go `int` (64 bit) arithmetic. -/
def wrap64 (i : Int) : Int := Int.bmod i (2 ^ 64)

/-- xmp/semver.go:23-27. Go `int` components are `Int`; where a property depends on the 64-bit
range it says so. -/
structure Version where
  major : Int
  minor : Int
  patch : Int
deriving DecidableEq, Repr

namespace Version

/-- The zero value `Version{}` (unset version). -/
def zero : Version := ⟨0, 0, 0⟩

/-- xmp/semver.go:29-57 `ParseVersion`. Tokens are converted last to first; an error of any token
is an error of the whole. The error text is not modelled (`none`). -/
def parse (s : Str) : Option Version :=
  match split '.' s with
  | [a] => (atoi a).map (fun i => ⟨i, 0, 0⟩)
  | [a, b] =>
    match atoi b with
    | none => none
    | some j => (atoi a).map (fun i => ⟨i, j, 0⟩)
  | [a, b, c] =>
    match atoi c with
    | none => none
    | some k =>
      match atoi b with
      | none => none
      | some j => (atoi a).map (fun i => ⟨i, j, k⟩)
  | _ => none

/-- xmp/semver.go:59-61 `Version.String`. -/
def toStr (v : Version) : Str :=
  itoa v.major ++ ['.'] ++ itoa v.minor ++ ['.'] ++ itoa v.patch

/-- xmp/semver.go:63-65 `Version.IsZero`: the (wrapping) sum of the components is zero. -/
def isZero (v : Version) : Bool := wrap64 (v.major + v.minor + v.patch) == 0

/-- xmp/semver.go:80-82 `Version.Equal`. -/
def equal (v a : Version) : Bool := v.major == a.major && v.minor == a.minor && v.patch == a.patch

/-- xmp/semver.go:84-88 `Version.Before`. -/
def before (v a : Version) : Bool :=
  (v.major < a.major) ||
  (v.major == a.major && v.minor < a.minor) ||
  (v.major == a.major && v.minor == a.minor && v.patch < a.patch)

/-- xmp/semver.go:90-94 `Version.After`. -/
def after (v a : Version) : Bool :=
  (v.major > a.major) ||
  (v.major == a.major && v.minor > a.minor) ||
  (v.major == a.major && v.minor == a.minor && v.patch > a.patch)

/-- xmp/semver.go:67-78 `Version.Between`. -/
def between (v a b : Version) : Bool :=
  if v.isZero then true
  else if a.isZero then v.before b || v.equal a
  else if b.isZero then v.after a || v.equal a
  else v.equal a || v.equal b || (v.after a && v.before b)

end Version
end Xmp
