import Verif.Model.GoStr

/-! Model of the part of Go's package `time` that dates use: `time.Time` as wall clock fields with a zone offset,
`Time.Format` and `time.Parse` (Go 1.20 or later, src/time/format.go) for layouts made of the elements that occur in
xmp/xmp_types.go:122-153, 265-269 and in models/exif/types.go.

Simplifications: names of zones, locations and the monotonic clock are left out (dates are printed with their offset);
12 hour clocks, names of months and days, day numbers of the year and zones with seconds do not occur in the layouts. -/

namespace Xmp

open GoStr

/-- A `time.Time`: the wall clock in its zone, and the offset of the zone in seconds east of UTC. -/
structure GoTime where
  year : Int := 1
  month : Nat := 1
  day : Nat := 1
  hour : Nat := 0
  min : Nat := 0
  sec : Nat := 0
  nsec : Nat := 0
  off : Int := 0
deriving DecidableEq, Repr

namespace GoTime

/-- Go `isLeap`. -/
def isLeap (y : Int) : Bool := y % 4 = 0 ∧ (y % 100 ≠ 0 ∨ y % 400 = 0)

/-- Go `daysIn`. -/
def daysIn (m : Nat) (y : Int) : Nat :=
  if m = 2 then (if isLeap y then 29 else 28)
  else if m = 4 ∨ m = 6 ∨ m = 9 ∨ m = 11 then 30 else 31

/-- Days of the months before month `m`. -/
def daysBefore (y : Int) (m : Nat) : Nat := ((List.range (m - 1)).map (fun k => daysIn (k + 1) y)).sum

/-- Days from 1 January of year 1 to 1 January of year `y`. -/
def daysToYear (y : Int) : Int := 365 * (y - 1) + (y - 1) / 4 - (y - 1) / 100 + (y - 1) / 400

/-- Seconds from the zero time (1 January of year 1, 00:00:00 UTC) to `t`. -/
def seconds (t : GoTime) : Int :=
  (daysToYear t.year + daysBefore t.year t.month + (t.day - 1)) * 86400 + t.hour * 3600 + t.min * 60 + t.sec - t.off

/-- Go `Time.IsZero`. -/
def isZero (t : GoTime) : Bool := t.seconds = 0 ∧ t.nsec = 0

end GoTime

/-- An element of a layout. -/
inductive Tok where
  | year4 | year2 | month | day | hour | min | sec
  | frac0 (n : Nat)
  | frac9 (n : Nat)
  | tzColon | tzIso | tz
  | lit (c : Char)
deriving DecidableEq, Repr

/-- Go `nextStdChunk`, applied until the layout is used up (only the elements listed above). -/
def tokens : Nat → Str → List Tok
  | 0, _ => []
  | f + 1, s =>
    match s with
    | '2' :: '0' :: '0' :: '6' :: r => .year4 :: tokens f r
    | '0' :: '1' :: r => .month :: tokens f r
    | '0' :: '2' :: r => .day :: tokens f r
    | '1' :: '5' :: r => .hour :: tokens f r
    | '0' :: '4' :: r => .min :: tokens f r
    | '0' :: '5' :: r => .sec :: tokens f r
    | '0' :: '6' :: r => .year2 :: tokens f r
    | '-' :: '0' :: '7' :: ':' :: '0' :: '0' :: r => .tzColon :: tokens f r
    | '-' :: '0' :: '7' :: '0' :: '0' :: r => .tz :: tokens f r
    | 'Z' :: '0' :: '7' :: ':' :: '0' :: '0' :: r => .tzIso :: tokens f r
    | '.' :: '0' :: r =>
      let run := ('0' :: r).takeWhile (· = '0')
      let rest := ('0' :: r).dropWhile (· = '0')
      if (rest.head?.map isDigit).getD false then .lit '.' :: tokens f ('0' :: r) else .frac0 run.length :: tokens f rest
    | '.' :: '9' :: r =>
      let run := ('9' :: r).takeWhile (· = '9')
      let rest := ('9' :: r).dropWhile (· = '9')
      if (rest.head?.map isDigit).getD false then .lit '.' :: tokens f ('9' :: r) else .frac9 run.length :: tokens f rest
    | c :: r => .lit c :: tokens f r
    | [] => []

/-- The elements of a layout. -/
def layoutToks (l : Str) : List Tok := tokens l.length l

/-! ### Format -/

/-- Go `appendInt` with a width, for numbers below `10 ^ w`. -/
def digitsW : Nat → Nat → Str
  | 0, _ => []
  | w + 1, n => digitsW w (n / 10) ++ [digitChar (n % 10)]

/-- Go `appendInt(b, year, 4)`. -/
def fmtYear (y : Int) : Str :=
  (if y < 0 then ['-'] else []) ++ (if y.natAbs < 10000 then digitsW 4 y.natAbs else natToStr y.natAbs)

/-- Go `appendNano`. -/
def fmtFrac (trim : Bool) (n ns : Nat) : Str :=
  if trim && (n = 0 || ns = 0) then []
  else
    let d := (digitsW 9 ns).take n
    if trim then
      let d' := (d.reverse.dropWhile (· = '0')).reverse
      if d' = [] then [] else '.' :: d'
    else '.' :: d

/-- Sign and digits of a zone offset; `sep` stands between hours and minutes. -/
def fmtOff (sep : Str) (off : Int) : Str :=
  let zone := Int.tdiv off 60
  (if zone < 0 then '-' else '+') :: (digitsW 2 (zone.natAbs / 60) ++ sep ++ digitsW 2 (zone.natAbs % 60))

/-- Go `AppendFormat`, one element. -/
def fmtTok (t : GoTime) : Tok → Str
  | .year4 => fmtYear t.year
  | .year2 => digitsW 2 (t.year.natAbs % 100)
  | .month => digitsW 2 t.month
  | .day => digitsW 2 t.day
  | .hour => digitsW 2 t.hour
  | .min => digitsW 2 t.min
  | .sec => digitsW 2 t.sec
  | .frac0 n => fmtFrac false n t.nsec
  | .frac9 n => fmtFrac true n t.nsec
  | .tzColon => fmtOff [':'] t.off
  | .tzIso => if t.off = 0 then ['Z'] else fmtOff [':'] t.off
  | .tz => fmtOff [] t.off
  | .lit c => [c]

/-- Go `Time.Format`. -/
def GoTime.format (t : GoTime) (layout : Str) : Str := (layoutToks layout).flatMap (fmtTok t)

/-! ### Parse -/

/-- The value of a digit. -/
def digitVal (c : Char) : Nat := c.toNat - 48

/-- Go `getnum` (src/time/format.go). -/
def getnum (fixed : Bool) : Str → Option (Nat × Str)
  | a :: b :: r =>
    if !isDigit a then none
    else if !isDigit b then (if fixed then none else some (digitVal a, b :: r))
    else some (digitVal a * 10 + digitVal b, r)
  | [a] => if !isDigit a || fixed then none else some (digitVal a, [])
  | [] => none

/-- Number of a text of digits. -/
def numOf (s : Str) : Nat := s.foldl (fun n c => n * 10 + digitVal c) 0

/-- Go `parseNanoseconds` on the digits after the separator. -/
def nanos (ds : Str) : Nat := numOf (ds.take 9) * 10 ^ (9 - (ds.take 9).length)

/-- What has been read so far; `none` stands for -1 (month, day) and for a missing zone. -/
structure Fields where
  year : Int := 0
  month : Option Nat := none
  day : Option Nat := none
  hour : Nat := 0
  min : Nat := 0
  sec : Nat := 0
  nsec : Nat := 0
  off : Option Int := none
deriving DecidableEq, Repr

/-- Does the text start with a fraction of a second? -/
def startsFrac : Str → Bool
  | a :: b :: _ => (a = '.' || a = ',') && isDigit b
  | _ => false

/-- The fraction of a second at the start of a text, and the rest. -/
def readFrac (s : Str) : Nat × Str :=
  let ds := (s.drop 1).takeWhile isDigit
  (nanos ds, (s.drop 1).dropWhile isDigit)

/-- Zone offset with sign, hours and minutes. -/
def readOff (f : Fields) (sign a b c d : Char) : Option Fields :=
  match getnum true [a, b], getnum true [c, d] with
  | some (hr, _), some (mm, _) =>
    if hr > 24 ∨ mm > 60 then none
    else if sign = '+' then some { f with off := some ((hr * 60 + mm) * 60) }
    else if sign = '-' then some { f with off := some (-((hr * 60 + mm) * 60)) }
    else none
  | _, _ => none

/-- Go `parse`, one element: the fields and the rest of the text; `none` is an error.  `next` is the next element of the
layout. -/
def parseTok (next : Option Tok) (f : Fields) (s : Str) : Tok → Option (Fields × Str)
  | .year2 =>
    match s with
    | a :: b :: r =>
      if isDigit a && isDigit b then
        let y := digitVal a * 10 + digitVal b
        some ({ f with year := if y ≥ 69 then y + 1900 else y + 2000 }, r)
      else if (a = '+' || a = '-') && isDigit b then
        some ({ f with year := (if a = '-' then -(digitVal b : Int) else digitVal b) + 2000 }, r)
      else none
    | _ => none
  | .year4 =>
    match s with
    | a :: b :: c :: d :: r =>
      if isDigit a && isDigit b && isDigit c && isDigit d then some ({ f with year := numOf [a, b, c, d] }, r) else none
    | _ => none
  | .month =>
    match getnum true s with
    | some (n, r) => if 1 ≤ n ∧ n ≤ 12 then some ({ f with month := some n }, r) else none
    | none => none
  | .day => (getnum true s).map (fun x => ({ f with day := some x.1 }, x.2))
  | .hour =>
    match getnum false s with
    | some (n, r) => if n < 24 then some ({ f with hour := n }, r) else none
    | none => none
  | .min =>
    match getnum true s with
    | some (n, r) => if n < 60 then some ({ f with min := n }, r) else none
    | none => none
  | .sec =>
    match getnum true s with
    | some (n, r) =>
      if n < 60 then
        if startsFrac r && !(match next with | some (.frac0 _) => true | some (.frac9 _) => true | _ => false) then
          some ({ f with sec := n, nsec := (readFrac r).1 }, (readFrac r).2)
        else some ({ f with sec := n }, r)
      else none
    | none => none
  | .frac0 n =>
    match s with
    | a :: r =>
      if (a = '.' || a = ',') && decide (n ≤ r.length) && (r.take n).all isDigit then
        some ({ f with nsec := nanos (r.take n) }, r.drop n)
      else none
    | [] => none
  | .frac9 _ => if startsFrac s then some ({ f with nsec := (readFrac s).1 }, (readFrac s).2) else some (f, s)
  | .tzColon =>
    match s with
    | g :: a :: b :: x :: c :: d :: r => if x = ':' then (readOff f g a b c d).map (·, r) else none
    | _ => none
  | .tzIso =>
    match s with
    | 'Z' :: r => some ({ f with off := some 0 }, r)
    | g :: a :: b :: x :: c :: d :: r => if x = ':' then (readOff f g a b c d).map (·, r) else none
    | _ => none
  | .tz =>
    match s with
    | g :: a :: b :: c :: d :: r => (readOff f g a b c d).map (·, r)
    | _ => none
  | .lit c =>
    if c = ' ' then
      match s with
      | [] => some (f, [])
      | x :: r => if x = ' ' then some (f, r.dropWhile (· = ' ')) else none
    else
      match s with
      | [] => none
      | x :: r => if x = c then some (f, r) else none

/-- Go `parse`, the loop over the elements. -/
def parseToks : List Tok → Fields → Str → Option Fields
  | [], f, s => if s = [] then some f else none
  | t :: ts, f, s =>
    match parseTok ts.head? f s t with
    | some (f', s') => parseToks ts f' s'
    | none => none

/-- Go `parse`, the end: defaults, the check of the day, and the result. -/
def finish (f : Fields) : Option GoTime :=
  let m := f.month.getD 1
  let d := f.day.getD 1
  if d < 1 ∨ d > GoTime.daysIn m f.year then none
  else some { year := f.year, month := m, day := d, hour := f.hour, min := f.min, sec := f.sec, nsec := f.nsec, off := f.off.getD 0 }

/-- Go `time.Parse`; `none` is an error. -/
def timeParse (layout value : Str) : Option GoTime := (parseToks (layoutToks layout) {} value).bind finish

end Xmp
