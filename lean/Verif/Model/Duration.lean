import Verif.Model.Codec
import Verif.Model.Semver

/-! Model of durations: xmp/units.go:221-307.  A duration is an `int64` of nanoseconds.  `time.Duration.String` and
`time.ParseDuration` belong to the standard library of Go (1.17 and newer, time/time.go and time/format.go) and are modelled
here because the code relies on them. -/

namespace Xmp.Duration

open GoStr

/-- `time.Second`. -/
def second : Nat := 1000000000

/-! ### Writing -/

/-- `fmtInt` of time/time.go. -/
def fmtInt (v : Nat) : Str := natToStr v

/-- The loop of `fmtFrac` of time/time.go: the digits from the last one on are put in front of `out` as soon as one of them
(`started`) is not zero. -/
def fracLoop : Nat → Nat → Bool → Str → Str × Nat × Bool
  | 0, v, started, out => (out, v, started)
  | p + 1, v, started, out =>
    let started := started || v % 10 ≠ 0
    fracLoop p (v / 10) started (if started then digitChar (v % 10) :: out else out)

/-- `fmtFrac` of time/time.go: the fraction with its point, and what is left of the number. -/
def fmtFrac (v prec : Nat) : Str × Nat :=
  match fracLoop prec v false [] with
  | (out, v, started) => (if started then '.' :: out else out, v)

/-- A number with a fraction of `prec` digits and a unit. -/
def fmtUnit (v prec : Nat) (u : Str) : Str := fmtInt (fmtFrac v prec).2 ++ (fmtFrac v prec).1 ++ u

/-- Hours, minutes and seconds, the last branch of `Duration.format` in time/time.go. -/
def fmtClock (u : Nat) : Str :=
  let f := fmtFrac u 9
  let s := fmtInt (f.2 % 60) ++ f.1 ++ ['s']
  let m := f.2 / 60
  if m > 0 then
    let h := m / 60
    if h > 0 then fmtInt h ++ ['h'] ++ fmtInt (m % 60) ++ ['m'] ++ s
    else fmtInt (m % 60) ++ ['m'] ++ s
  else s

/-- The text without sign, `Duration.format` in time/time.go. -/
def fmtAbs (u : Nat) : Str :=
  if u < second then
    if u = 0 then "0s".toList
    else if u < 1000 then fmtUnit u 0 "ns".toList
    else if u < 1000000 then fmtUnit u 3 ['Â', 'µ', 's']
    else fmtUnit u 6 "ms".toList
  else fmtClock u

/-- xmp/units.go:228-230 `Duration.String`, 254-256 `Duration.MarshalText`. -/
def text (d : Int) : Str := if d < 0 then '-' :: fmtAbs d.natAbs else fmtAbs d.natAbs

/-! ### Reading -/

/-- `leadingInt` of time/format.go: the number at the beginning and the rest, none if it is larger than 2^63.  Simplified: all digits
are taken before the comparison, which the code makes after each digit. -/
def leadingInt (s : Str) : Option (Nat × Str) :=
  match digitsVal 0 (s.takeWhile isDigit) with
  | some v => if v ≤ 2 ^ 63 then some (v, s.dropWhile isDigit) else none
  | none => none

/-- `leadingFraction` of time/format.go: the digits as a number `x` and the power of ten to divide by; digits after an overflow are
skipped. -/
def leadingFraction : Nat → Nat → Bool → Str → Nat × Nat × Str
  | x, scale, over, c :: s =>
    if isDigit c then
      if over then leadingFraction x scale over s
      else if x > (2 ^ 63 - 1) / 10 then leadingFraction x scale true s
      else if x * 10 + (c.toNat - 48) > 2 ^ 63 then leadingFraction x scale true s
      else leadingFraction (x * 10 + (c.toNat - 48)) (scale * 10) over s
    else (x, scale, c :: s)
  | x, scale, _, [] => (x, scale, [])

/-- A byte of a number. -/
def numChar (c : Char) : Bool := c = '.' || isDigit c

/-- `unitMap` of time/format.go; the micro sign and the Greek letter are two bytes each. -/
def unitNs (u : Str) : Option Nat :=
  if u = "ns".toList then some 1
  else if u = "us".toList then some 1000
  else if u = ['Â', 'µ', 's'] then some 1000
  else if u = ['Î', '¼', 's'] then some 1000
  else if u = "ms".toList then some 1000000
  else if u = "s".toList then some 1000000000
  else if u = "m".toList then some 60000000000
  else if u = "h".toList then some 3600000000000
  else none

/-- The fraction after a number: its digits as number, the power of ten, whether there are digits, and the rest. -/
def fraction (s : Str) : Nat × Nat × Bool × Str :=
  match s with
  | '.' :: r =>
    match leadingFraction 0 1 false r with
    | (f, scale, rest) => (f, scale, r.length ≠ rest.length, rest)
  | _ => (0, 1, false, s)

/-- A number with its unit at the beginning of the text, the body of the loop of `time.ParseDuration`.  Simplified: the fraction is
computed exactly instead of with floating point numbers. -/
def component (s : Str) : Option (Nat × Str) :=
  match leadingInt s with
  | none => none
  | some (v, r) =>
    match fraction r with
    | (f, scale, post, r2) =>
      if (s.length = r.length ∧ post = false) then none
      else
        match unitNs (r2.takeWhile (fun c => !numChar c)) with
        | none => none
        | some unit =>
          if v > 2 ^ 63 / unit then none
          else if v * unit + f * unit / scale > 2 ^ 63 then none
          else some (v * unit + f * unit / scale, r2.dropWhile (fun c => !numChar c))

/-- The loop of `time.ParseDuration`; the first argument is fuel. -/
def components : Nat → Nat → Str → Option Nat
  | _, d, [] => some d
  | 0, _, _ :: _ => none
  | n + 1, d, c :: s =>
    if numChar c then
      match component (c :: s) with
      | some (v, r) => if d + v > 2 ^ 63 then none else components n (d + v) r
      | none => none
    else none

/-- `time.ParseDuration` after the sign. -/
def timeParseAbs (neg : Bool) (s : Str) : Option Int :=
  if s = ['0'] then some 0
  else if s = [] then none
  else
    match components s.length 0 s with
    | some d => if neg then some (-(d : Int)) else if d > 2 ^ 63 - 1 then none else some (d : Int)
    | none => none

/-- `time.ParseDuration`, time/format.go. -/
def timeParse (s : Str) : Option Int :=
  match s with
  | '-' :: r => timeParseAbs true r
  | '+' :: r => timeParseAbs false r
  | _ => timeParseAbs false s

/-- xmp/units.go:242-247: all white space is removed.  Simplified: bytes that are not UTF-8 stay as they are instead of being
replaced; neither is part of a duration. -/
def noSpace : Nat → Str → Str
  | 0, s => s
  | _, [] => []
  | n + 1, c :: s =>
    match spaces.find? (fun w => hasPrefix (c :: s) w) with
    | some w => noSpace n ((c :: s).drop w.length)
    | none => c :: noSpace n s

/-- `Duration(time.Duration(i) * time.Second)`, xmp/units.go:235, 275. -/
def ofSeconds (i : Int) : Int := wrap64 (i * 1000000000)

/-- xmp/units.go:232-252 `ParseDuration`. -/
def parse (s : Str) : Option Int :=
  match parseInt 64 s with
  | some i => some (ofSeconds i)
  | none =>
    match timeParse s with
    | some d => some d
    | none => timeParse (noSpace s.length s)

/-- xmp/units.go:258-265 `Duration.UnmarshalText`. -/
def unmarshalText (data : Str) : Option Int := parse data

/-- What `encoding/json` writes for a `TextMarshaler`: the text as a string.  The text of a duration needs no escapes. -/
def json (d : Int) : Str := '"' :: text d ++ ['"']

/-- xmp/units.go:267-279 `Duration.UnmarshalJSON`. -/
def unmarshalJSON (old : Int) (data : Str) : Option Int :=
  match data with
  | [] => some old
  | c :: cs =>
    if c = '"' then parse (Codec.trimQuotes (c :: cs))
    else (parseInt 64 (c :: cs)).map ofSeconds

/-! ### Rounding -/

/-- Rounding up, `math.Ceil` of a quotient.  Simplified: exact instead of floating point arithmetic. -/
def ceilDiv (a r : Int) : Int := -((-a) / r)

/-- xmp/units.go:281-287 `Duration.Truncate`, for positive `r`. -/
def truncate (d r : Int) : Int :=
  if d > 0 then wrap64 (ceilDiv d r * r) else wrap64 (d / r * r)

/-- xmp/units.go:289-307 `RoundToDays`, `RoundToHours`, `RoundToMinutes`, `RoundToSeconds`, `RoundToMillisecond`. -/
def roundTo (d r : Int) : Int := (truncate d r).tdiv r

end Xmp.Duration
