import Verif.Model.Semver
import Verif.Model.Path
import Verif.Model.AltString
import Verif.Model.Array

/-! A universe of Go model types (structs with `xmp` tags) and their values, with the reflection based
helpers of xmp/typeinfo.go, xmp/native.go, xmp/marshal.go and xmp/unmarshal.go that work on them.

Covered are the kinds of fields the models of /repo/models use: integers, booleans, strings, byte slices,
types with a text form of their own (`MarshalText`/`UnmarshalText`; floating point fields belong here
too, with the text form of `strconv`), language alternatives, slices with an XMP array type, pointers and
structs.  Not covered: maps, fixed size arrays, embedded structs and the extension types of xmp_ext.go. -/

namespace Xmp

open GoStr

/-- A type with `MarshalText` and `UnmarshalText`.  Its values are numbered; 0 is the Go zero value.
`enc`: `none` is an error, `some none` a nil byte slice.  `dec old text`: the value after
`UnmarshalText(text)` on `old`, `none` is an error (which leaves the value as it was).  `empty`: what
`isEmptyValue` (xmp/marshal.go:497-517) says; `hasIsZero`: the type has an `IsZero` method. -/
structure Codec where
  enc : Nat → Option (Option Str)
  dec : Nat → Str → Option Nat
  empty : Nat → Bool
  hasIsZero : Bool

/-- The part of `fieldInfo` used here (xmp/typeinfo.go:28-37): the tag name and the tag options.  The
flag `fElement` is set exactly when `fAttr` is not (typeinfo.go:228-231, 268-270). -/
structure FieldInfo where
  name : Str
  attr : Bool := false
  empty : Bool := false
  omitted : Bool := false
  any : Bool := false
  minVersion : Version := Version.zero
  maxVersion : Version := Version.zero
deriving DecidableEq

/-- Go values.  A slice carries the elements that its backing array holds beyond its length (`spare`),
because growing a slice (xmp/path.go:1273-1286) makes them visible again. -/
inductive Val where
  | int (i : Int)
  | bool (b : Bool)
  | str (s : Str)
  | bytes (s : Str)
  | opq (n : Nat)
  | alt (a : AltString)
  | slice (items spare : List Val)
  | nil
  | ptr (v : Val)
  | struct (vals : List Val)

/-- Go types.  A struct has one field info and one type per field; `zero` is its `IsZero` method if it
has one. -/
inductive Ty where
  | int (bits : Nat)
  | uint (bits : Nat)
  | bool
  | str
  | bytes
  | text (c : Codec)
  | alt
  | slice (typ : ArrayType) (elem : Ty)
  | ptr (t : Ty)
  | struct (zero : Option (List Val → Bool)) (infos : List FieldInfo) (tys : List Ty)

mutual
/-- The Go zero value of a type. -/
def Ty.zero : Ty → Val
  | .int _ => .int 0
  | .uint _ => .int 0
  | .bool => .bool false
  | .str => .str []
  | .bytes => .bytes []
  | .text _ => .opq 0
  | .alt => .alt []
  | .slice _ _ => .slice [] []
  | .ptr _ => .nil
  | .struct _ _ tys => .struct (Ty.zeros tys)
/-- Zero values of a list of types. -/
def Ty.zeros : List Ty → List Val
  | [] => []
  | t :: ts => Ty.zero t :: Ty.zeros ts
end

mutual
/-- The values of a type.  Integers are in range; a struct has as many fields as its type. -/
def HasTy : Ty → Val → Prop
  | .int bits, .int i => -(2 ^ (bits - 1) : Int) ≤ i ∧ i < (2 ^ (bits - 1) : Int)
  | .uint bits, .int i => 0 ≤ i ∧ i < (2 ^ bits : Int)
  | .bool, .bool _ => True
  | .str, .str _ => True
  | .bytes, .bytes _ => True
  | .text _, .opq _ => True
  | .alt, .alt _ => True
  | .slice _ t, .slice l sp => (∀ v ∈ l, HasTy t v) ∧ (∀ v ∈ sp, HasTy t v)
  | .ptr _, .nil => True
  | .ptr t, .ptr v => HasTy t v
  | .struct _ _ tys, .struct vals => HasTys tys vals
  | _, _ => False
/-- Fields against their types. -/
def HasTys : List Ty → List Val → Prop
  | [], [] => True
  | t :: ts, v :: vs => HasTy t v ∧ HasTys ts vs
  | _, _ => False
end

/-- Does the type (not a pointer) have an `IsZero` method, so that a non-nil pointer to it can count as
empty (xmp/marshal.go:498-500)?  Pointers to slices are not covered. -/
def Ty.hasIsZero : Ty → Bool
  | .text c => c.hasIsZero
  | .alt => true
  | .struct z _ _ => z.isSome
  | _ => false

/-- xmp/marshal.go:497-517 `isEmptyValue`.  (A nil pointer to a type with `IsZero` would panic there; all
callers test for nil first.) -/
def isEmptyValue : Ty → Val → Bool
  | .int _, .int i => i == 0
  | .uint _, .int i => i == 0
  | .bool, .bool b => !b
  | .str, .str s => s.isEmpty
  | .bytes, .bytes s => s.isEmpty
  | .text c, .opq n => c.empty n
  | .alt, .alt a => a.isEmpty
  | .slice _ _, .slice l _ => l.isEmpty
  | .ptr _, .nil => true
  | .ptr t, .ptr v => t.hasIsZero && isEmptyValue t v
  | .struct (some z) _ _, .struct vals => z vals
  | _, _ => false

/-- xmp/typeinfo.go:364-379 `derefValue` for pointers: a nil pointer is allocated. -/
def derefVal : Ty → Val → Ty × Val
  | .ptr t, .ptr v => (t, v)
  | .ptr t, .nil => (t, t.zero)
  | t, v => (t, v)

/-- The value to be stored after a dereferenced value of type `t` was changed to `v`. -/
def rewrap : Ty → Val → Val
  | .ptr _, v => .ptr v
  | _, v => v

/-- xmp/marshal.go:591-624 `marshalSimple`; `none` is an error. -/
def marshalSimple : Val → Option Str
  | .int i => some (itoa i)
  | .bool b => some (if b then "true".toList else "false".toList)
  | .str s => some s
  | .bytes s => some s
  | _ => none

/-- Go `strconv.ParseBool`; `none` is an error. -/
def parseBool (s : Str) : Option Bool :=
  if s ∈ ["1", "t", "T", "TRUE", "true", "True"].map String.toList then some true
  else if s ∈ ["0", "f", "F", "FALSE", "false", "False"].map String.toList then some false
  else none

/-- xmp/unmarshal.go:474-519 `setValue` on a dereferenced value; `none` is an error.  Slices other than
`[]byte` are left alone without an error. -/
def setValue (ty : Ty) (v : Val) (src : Str) : Option Val :=
  match ty with
  | .int bits => (parseInt bits src).map .int
  | .uint bits => (parseUint bits src).map (fun n : Nat => Val.int (n : Int))
  | .bool => (parseBool (trimSpace src)).map .bool
  | .str => some (.str (trimSpace src))
  | .bytes => some (.bytes src)
  | .slice _ _ => some v
  | .alt => some v
  | _ => none

/-- The text of a value that is no array: `MarshalText` if the type has it, otherwise `marshalSimple`
(e.g. xmp/path.go:387-434).  `none` is an error, `some none` a nil byte slice. -/
def leafText : Ty → Val → Option (Option Str)
  | .text c, .opq n => c.enc n
  | _, v => (marshalSimple v).map some

/-- Set a value that is no array from text: `UnmarshalText` if the type has it, otherwise `setValue`
(e.g. xmp/path.go:959-969). -/
def parseLeaf : Ty → Val → Str → Option Val
  | .text c, .opq n, s => (c.dec n s).map .opq
  | .text _, _, _ => none
  | t, v, s => setValue t v s

/-- Name test of xmp/native.go:370-380. -/
def fieldMatches (name : Str) (v : FieldInfo) : Bool :=
  if hasNsPrefix name then decide (v.name = name) else decide (stripPrefix v.name = name)

/-- The last field with the `any` flag (the variable `any` of xmp/native.go:361, 366-368 when no field
matched). -/
def lastAny : List FieldInfo → Option Nat
  | [] => none
  | f :: fs =>
    match lastAny fs with
    | some i => some (i + 1)
    | none => if f.any then some 0 else none

/-- xmp/native.go:352-400 `findField`: the first field with a matching name, otherwise the last `any`
field; versions are not looked at. -/
def findField (infos : List FieldInfo) (name : Str) : Option Nat :=
  match infos.findIdx? (fieldMatches name) with
  | some i => some i
  | none => lastAny infos

end Xmp
