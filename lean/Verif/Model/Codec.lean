import Verif.Model.GoStr

/-! Model of the text forms of simple values: xmp/xmp_types.go and xmp/units.go.  `UnmarshalText` is a
function of the old value and the text, `none` is an error. -/

namespace Xmp.Codec

open GoStr

/-! ### Bool -/

/-- xmp/xmp_types.go:64-69 `Bool.MarshalText`. -/
def boolText (b : Bool) : Str := if b then "True".toList else "False".toList

/-- xmp/xmp_types.go:71-82 `Bool.UnmarshalText`. -/
def boolParse (s : Str) : Option Bool :=
  if s = "True".toList ∨ s = "true".toList ∨ s = "TRUE".toList then some true
  else if s = "False".toList ∨ s = "false".toList ∨ s = "FALSE".toList then some false
  else none

/-! ### NullInt -/

/-- The strings that stand for a missing number, xmp/units.go:53, 108. -/
def nullNumber (s : Str) : Bool :=
  s = [] || s = "-".toList || s = "--".toList || s = "---".toList || s = "NaN".toList || s = "unknown".toList

/-- xmp/units.go:64-66 `NullInt.MarshalText`. -/
def nullIntText (i : Int) : Str := itoa i

/-- xmp/units.go:51-62 `ParseNullInt` and 68-78 `NullInt.UnmarshalText`. -/
def nullIntParse (old : Int) (s : Str) : Option Int :=
  if nullNumber s then some old else parseInt 64 s

/-- `bytes.Trim(data, "\"")`. -/
def trimQuotes (s : Str) : Str :=
  ((s.dropWhile (· = '"')).reverse.dropWhile (· = '"')).reverse

/-- xmp/units.go:84-92 `NullInt.UnmarshalJSON`. -/
def nullIntParseJSON (old : Int) (s : Str) : Option Int :=
  match s with
  | [] => some old
  | c :: cs => if c = '"' then nullIntParse old (trimQuotes (c :: cs)) else nullIntParse old (c :: cs)

/-! ### SplitInt -/

/-- `uint32(v)` of a Go integer. -/
def toU32 (i : Int) : Nat := (i % (2 ^ 32 : Int)).toNat

/-- The loop of xmp/units.go:115-122: each part is parsed with bit size 8 and added at its position;
`uint32` arithmetic wraps around. -/
def splitSum : Nat → List Str → Option Nat
  | _, [] => some 0
  | i, f :: fs =>
    match parseInt 8 f, splitSum (i + 1) fs with
    | some v, some u => some ((toU32 v * 2 ^ ((3 - i) * 8) + u) % 2 ^ 32)
    | _, _ => none

/-- xmp/units.go:105-129 `SplitInt.UnmarshalText`. -/
def splitIntParse (old : Nat) (s : Str) : Option Nat :=
  if nullNumber s then some old
  else
    match parseInt 32 s with
    | some i => some (toU32 i)
    | none => if (split ':' s).length = 4 then splitSum 0 (split ':' s) else none

/-- `SplitInt` has no text form of its own, it is written as unsigned integer,
xmp/marshal.go:598-600. -/
def splitIntText (n : Nat) : Str := natToStr n

/-! ### NullString -/

/-- The strings that stand for a missing string, xmp/units.go:145. -/
def nullText (s : Str) : Bool := s = [] || s = "-".toList || s = "--".toList || s = "unknown".toList

/-- xmp/units.go:156-171 `NullString.UnmarshalText`: a value that is set is kept. -/
def nullStringParse (old s : Str) : Str :=
  if old ≠ [] then old
  else if nullText (trimSpace s) then old
  else trimSpace s

/-! ### NullBool -/

/-- The strings that stand for a missing truth value, xmp/units.go:182. -/
def nullTruth (s : Str) : Bool := s = [] || s = "-".toList || s = "--".toList || s = "---".toList

/-- xmp/units.go:191-193 `NullBool.MarshalText`. -/
def nullBoolText (b : Bool) : Str := if b then "true".toList else "false".toList

/-- The strings for true, xmp/units.go:184. -/
def truths : List Str := ["true".toList, "on".toList, "yes".toList, "1".toList, "enabled".toList]

/-- xmp/units.go:180-189 `ParseNullBool` and 195-205 `NullBool.UnmarshalText`; there are no errors. -/
def nullBoolParse (old : Bool) (s : Str) : Bool :=
  if nullTruth (toLower s) then old else truths.contains (toLower s)

/-! ### GUID -/

/-- xmp/xmp_types.go:336-341 `GUID.Issuer`. -/
def guidIssuer (s : Str) : Str :=
  match lastIndexChar ':' s with
  | some i => s.take i
  | none => []

/-- xmp/xmp_types.go:351-358 `GUID.MarshalText`, `UnmarshalText`. -/
def guidText (s : Str) : Str := s

/-- See `guidText`. -/
def guidParse (s : Str) : Str := s

/-! ### NullFloat -/

/-- A floating point number; the finite ones are left abstract. -/
inductive Fl (F : Type) where
  | nan
  | pinf
  | ninf
  | fin (x : F)
deriving DecidableEq, Repr

/-- xmp/units.go:320, 333 `cleanFloat.ReplaceAllString(d, "")`: all bytes other than `0-9`, `e`, `.`, `+` and `-`
are removed. -/
def cleanFloat (s : Str) : Str := s.filter (fun c => isDigit c || c = 'e' || c = '.' || c = '+' || c = '-')

/-- `strconv.ParseFloat` and the formatting of finite numbers by `strconv.FormatFloat` and `json.Marshal`. -/
structure FloatLib (F : Type) where
  parse : Str → Option (Fl F)
  text : F → Str
  json : F → Str

/-- xmp/units.go:342-344, 413-415 `MarshalText`. -/
def floatText {F : Type} (lib : FloatLib F) : Fl F → Str
  | .nan => "NaN".toList
  | .pinf => "+Inf".toList
  | .ninf => "-Inf".toList
  | .fin x => lib.text x

/-- xmp/units.go:322-340 `ParseNullFloat`, 346-356 `UnmarshalText` (and 393-411, 417-427 for 64 bit). -/
def floatParse {F : Type} (lib : FloatLib F) (old : Fl F) (s : Str) : Option (Fl F) :=
  let l := toLower s
  if l = [] ∨ l = "-".toList ∨ l = "--".toList ∨ l = "---".toList ∨ l = "unknown".toList then some old
  else if l = "nan".toList then some .nan
  else if l = "-inf".toList then some .ninf
  else if l = "+inf".toList ∨ l = "inf".toList then some .pinf
  else lib.parse (cleanFloat s)

/-- xmp/units.go:359-370, 430-441 `MarshalJSON`. -/
def floatJSON {F : Type} (lib : FloatLib F) : Fl F → Str
  | .nan => "\"NaN\"".toList
  | .ninf => "\"+Inf\"".toList
  | .pinf => "\"-Inf\"".toList
  | .fin x => lib.json x

/-- xmp/units.go:372-380, 443-451 `UnmarshalJSON`. -/
def floatParseJSON {F : Type} (lib : FloatLib F) (old : Fl F) (s : Str) : Option (Fl F) :=
  match s with
  | [] => some old
  | c :: cs => if c = '"' then floatParse lib old (trimQuotes (c :: cs)) else floatParse lib old (c :: cs)

/-! ### Rational -/

/-- xmp/xmp_types.go:504-507. -/
structure Rational where
  num : Int
  den : Int
deriving DecidableEq, Repr

/-- xmp/xmp_types.go:527-533 `Rational.String`. -/
def Rational.text (r : Rational) : Str := itoa r.num ++ '/' :: itoa r.den

/-- xmp/xmp_types.go:539-544 `gcd`; `%` of Go is the remainder of division truncated towards zero. -/
def gcd (x y : Int) : Int :=
  if _h : y = 0 then x else gcd y (x.tmod y)
termination_by y.natAbs
decreasing_by
  have h1 := Int.natAbs_tmod x y
  have h2 := Nat.mod_lt x.natAbs (Int.natAbs_pos.mpr _h)
  omega

/-- The end of `FloatToRational`, xmp/xmp_types.go:563-565: the scaled and rounded number `nom` over `den` is
reduced.  The floating point computation of `nom` is not modelled. -/
def reduce (nom den : Int) : Rational := ⟨nom.tdiv (gcd nom den), den.tdiv (gcd nom den)⟩

/-- The spaces that `fmt.Sscanf` skips before a number; a newline is an error. -/
def scanSpaces : List Str := spaces.filter (· ≠ ['\n'])

/-- The run of digits at the beginning. -/
def takeDigits (s : Str) : Str := s.takeWhile isDigit

/-- The sign at the beginning. -/
def scanSign : Str → Str
  | '+' :: _ => ['+']
  | '-' :: _ => ['-']
  | _ => []

/-- The verb `%d` of `fmt.Sscanf`: skip spaces, optional sign, digits; the rest of the input is returned. -/
def scanInt (s : Str) : Option (Int × Str) :=
  let s := dropRun scanSpaces s.length s
  let sign := scanSign s
  let s := s.drop sign.length
  let ds := takeDigits s
  if ds = [] then none
  else (parseInt 64 (sign ++ ds)).map (fun i => (i, s.drop ds.length))

/-- `fmt.Sscanf(v, "%d/%d", ..)`: the input after the second number is not looked at. -/
def scanSlash (v : Str) : Option Rational :=
  match scanInt v with
  | some (n, '/' :: rest) =>
    match scanInt rest with
    | some (d, _) => some ⟨n, d⟩
    | none => none
  | _ => none

/-- `fmt.Sscanf(v, "%d %d", ..)`: the space in the format stands for one or more spaces.  Simplified: only
space and tab are taken for the first space. -/
def scanSpace (v : Str) : Option Rational :=
  match scanInt v with
  | some (n, c :: rest) =>
    if c = ' ' ∨ c = '\t' then
      match scanInt rest with
      | some (d, _) => some ⟨n, d⟩
      | none => none
    else none
  | _ => none

/-- A decimal fraction `n / 10^k` as text: optional minus sign, digits, point, digits. -/
def parseDecimal (v : Str) : Option (Int × Nat) :=
  match indexChar '.' v with
  | none => none
  | some i =>
    let neg := hasPrefix v ['-']
    let a := trimPrefix (v.take i) ['-']
    let b := v.drop (i + 1)
    match parseNat (a ++ b) with
    | none => none
    | some n => some (if neg then -(n : Int) else n, b.length)

/-- xmp/xmp_types.go:574-584, a text with a point: numbers below 1 become the fraction `1/d`, others are left
to `large`.  Simplified: exact instead of floating point arithmetic, no exponents; zero (a division by zero
in the code, converted to an unspecified integer) is `none`. -/
def fromDecimal (large : Str → Option Rational) (v : Str) : Option Rational :=
  match parseDecimal v with
  | none => none
  | some (n, k) =>
    if n < 10 ^ k then
      if n = 0 then none else some ⟨1, ((1000 * 10 ^ k + 50 * n).tdiv n).tdiv 1000⟩
    else large v

/-- xmp/xmp_types.go:568-600 `Rational.UnmarshalText`; `dec` is the branch for texts with a point. -/
def ratParse (dec : Str → Option Rational) (old : Rational) (v : Str) : Option Rational :=
  if v = [] then some old
  else if containsChar v '.' then dec v
  else if containsChar v '/' then scanSlash v
  else if containsChar v ' ' then scanSpace v
  else (parseInt 64 v).map (fun n => ⟨n, 1⟩)

end Xmp.Codec
