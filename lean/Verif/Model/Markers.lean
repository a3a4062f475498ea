import Verif.Model.Media
import Verif.Model.Codec

/-!
# Markers and video frame rates of the dynamic media schema (models/xmp_dm/types.go)
-/

namespace Xmp.Media

open GoStr

/-- models/xmp_dm/types.go:321-326 `FrameRate.Value` as numerator and denominator of an exact fraction
(the code has a floating point number). -/
def FrameRate.value (x : FrameRate) : Int × Int := if x.base = 0 then (0, 1) else (x.rate, x.base)

/-- Comparison `a / b < c / d` of fractions with denominators other than zero. -/
def fracLess (x y : Int × Int) : Bool :=
  decide (if 0 < x.2 * y.2 then x.1 * y.2 < y.1 * x.2 else y.1 * x.2 < x.1 * y.2)

/-- models/xmp_dm/types.go:197-199 `FrameCount.IsSmaller`: count times rate.  The numbers are exact
here, products of floating point numbers in the code. -/
def FrameCount.isSmaller (x y : FrameCount) : Bool :=
  fracLess (x.count * x.rate.value.1, x.rate.value.2) (y.count * y.rate.value.1, y.rate.value.2)

/-- models/xmp_dm/types.go:373-385 `Marker`: name, start and types. -/
structure Marker where
  name : Str
  start : FrameCount
  types : List Str
deriving DecidableEq

/-- models/xmp_dm/types.go:417 `MarkerList.Less`. -/
def Marker.less (x y : Marker) : Bool := x.start.isSmaller y.start

/-- models/xmp_dm/types.go:419-421 `MarkerList.Sort`.  `sort.Sort` promises a rearrangement in which no
element is less than the one before it; which of these it is is not specified.  So `y` is a possible
outcome for `x`. -/
def SortOutcome (x y : List Marker) : Prop :=
  y.Perm x ∧ ∀ i a b, y[i]? = some a → y[i + 1]? = some b → b.less a = false

/-- models/xmp_dm/types.go:435-447 `MarkerTypeList.Intersect`. -/
def intersect (x y : List Str) : List Str := y.filter (fun v => x.contains v)

/-- models/xmp_dm/types.go:423-431 `MarkerList.Filter`. -/
def filterMarkers (x : List Marker) (types : List Str) : List Marker :=
  x.filter (fun v => decide (0 < (intersect types v.types).length))

/-- models/xmp_dm/types.go:449-456 `MarkerTypeList.Contains`. -/
def hasType (x : List Str) (t : Str) : Bool := x.any (· == t)

/-! ### Video frame rates -/

/-- `strings.ToUpper` on ASCII letters.  Of the other characters only U+0131 and U+017F have ASCII
capitals, `I` and `S`; these are not modelled. -/
def upperChar (c : Char) : Char :=
  if 97 ≤ c.toNat ∧ c.toNat ≤ 122 then Char.ofNat (c.toNat - 32) else c

/-- xmp/xmp_types.go:520-525 `Rational.Value` as an exact fraction. -/
def ratValue (r : Codec.Rational) : Int × Int := if r.den = 0 then (1, 1) else (r.num, r.den)

/-- models/xmp_dm/types.go:283-311 `VideoFrameRate.UnmarshalText`, the number as an exact fraction.
`dec` is the branch of `Rational.UnmarshalText` for texts with a point and `float` is
`strconv.ParseFloat`. -/
def videoRate (dec : Str → Option Codec.Rational) (float : Str → Option (Int × Int)) (data : Str) :
    Option (Int × Int) :=
  if data.map upperChar = "NTSC".toList then some (2997, 100)
  else if data.map upperChar = "PAL".toList then some (25, 1)
  else
    match Codec.ratParse dec ⟨0, 0⟩ data with
    | some r => some (ratValue r)
    | none =>
      let v := trimSpace (trimSuffix data "fps".toList)
      let v := trimSuffix v ['i']
      let v := trimSuffix v ['p']
      float v

end Xmp.Media
