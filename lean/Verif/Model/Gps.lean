import Verif.Model.GoStr
import Verif.Model.Codec
import Mathlib.Data.Rat.Floor

/-! Model of the coordinates and time stamps of models/exif/types.go:356-414 and of rationals read from decimal texts
(xmp/xmp_types.go:546-585).

Simplification: floating point numbers are exact rational numbers, so the rounding of each operation is left out, and
so are infinities and NaN.  Conversions to `int` and `int64` do not overflow. -/

namespace Xmp.Gps

open GoStr Codec

/-- The conversion of a floating point number to an integer: truncation towards zero. -/
def trunc (q : ℚ) : Int := if q < 0 then -⌊-q⌋ else ⌊q⌋

/-! ### Decimal texts -/

/-- The nearest integer, the even one of two (`strconv.FormatFloat` rounds like this). -/
def roundEven (q : ℚ) : Int :=
  let k := ⌊q⌋
  if q - k < 1 / 2 then k else if 1 / 2 < q - k then k + 1 else if k % 2 = 0 then k else k + 1

/-- A number with leading zeros to width `w`. -/
def padTo (w n : Nat) : Str := List.replicate (w - (natToStr n).length) '0' ++ natToStr n

/-- `strconv.AppendFloat(.., q, 'f', 7, 64)`. -/
def fixed7 (q : ℚ) : Str :=
  let k := (roundEven (|q| * 10 ^ 7)).toNat
  (if q < 0 then ['-'] else []) ++ natToStr (k / 10 ^ 7) ++ '.' :: padTo 7 (k % 10 ^ 7)

/-! ### Rationals from decimals -/

/-- xmp/xmp_types.go:547-566 `FloatToRational`; the cases of lines 555-558 come after `f > 2147` and are never taken. -/
def floatToRational (f : ℚ) : Rational :=
  let den : Int := if f > 2147 then 10000 else 1000000
  let rnd : ℚ := if f < 0 then -1 / 2 else 1 / 2
  reduce (trunc (f * den + rnd)) den

/-- xmp/xmp_types.go:575-583: the rational of a text with a decimal point that stands for `f`; a number below one becomes
one over an integer.  Division by zero (an infinity in Go, whose conversion is unspecified) gives 0 here; no theorem is about it. -/
def ratDecimal (f : ℚ) : Rational :=
  if f < 1 then ⟨1, (trunc (1000 / f + 50)).tdiv 1000⟩ else floatToRational f

/-! ### Coordinates -/

/-- models/exif/types.go:356 `GPSCoord`: degrees, minutes, seconds. -/
structure Coord where
  deg : Rational
  min : Rational
  sec : Rational
deriving DecidableEq

/-- models/exif/types.go:359-373 `GPSCoord.UnmarshalText`; `pf` is `strconv.ParseFloat`, which refuses the empty text. -/
def coordParse (pf : Str → Option ℚ) (s : Str) : Option Coord :=
  match pf s with
  | none => none
  | some f =>
    if s.head? ≠ some '-' ∧ ((split '.' s).headD []).length > 3 then none
    else
      let val := |f|
      let degrees := ⌊val⌋
      let minutes := ⌊60 * (val - degrees)⌋
      let seconds : ℚ := 3600 * (val - degrees - minutes / 60)
      some ⟨floatToRational degrees, floatToRational minutes, floatToRational seconds⟩

/-- The value of a rational, `float64(v.Num) / float64(v.Den)`. -/
def ratio (r : Rational) : ℚ := r.num / r.den

/-- models/exif/types.go:375-396 `convertGPStoXMP`; `none` is an error. -/
def coordText (r : Coord) (ref : Str) : Option Str :=
  if ref = [] then some []
  else if r.deg.den = 0 ∨ r.min.den = 0 ∨ r.sec.den = 0 then none
  else
    let min := ratio r.deg * 60 + ratio r.min + ratio r.sec / 60
    let ideg := trunc (min / 60)
    let min := min - ideg * 60
    some (itoa ideg ++ ',' :: (fixed7 min ++ ref))

/-- models/exif/model.go:359-371: the coordinate of the document afterwards; `old` is the one before, errors are ignored. -/
def coordSync (old : Str) (r : Coord) (ref : Str) : Str :=
  match coordText r ref with
  | some v => if v ≠ [] then v else old
  | none => old

/-- xmp/xmp_types.go:638-640 `GPSCoord.IsZero`. -/
def coordIsZero (x : Str) : Bool := x = [] || x = "0,0.0000000".toList

/-! ### Time stamps -/

/-- xmp/xmp_types.go:520-525 `Rational.Value`. -/
def ratValue (r : Rational) : ℚ := if r.den = 0 then 1 else ratio r

/-- The units of models/exif/types.go:404-411 in nanoseconds. -/
def stampUnits : List ℚ := [3600 * 10 ^ 9, 60 * 10 ^ 9, 10 ^ 9]

/-- models/exif/types.go:402-412: the duration in nanoseconds that is added to the date. -/
def stampDuration (x : List Rational) : Int := ((x.zip stampUnits).map (fun p => trunc (ratValue p.1 * p.2))).sum

end Xmp.Gps
