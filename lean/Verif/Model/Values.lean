import Verif.Model.Codec
import Verif.Model.GoFields
import Verif.Model.GoTime

/-! Model of the small value types of the models for QuickTime, Camera Raw, iTunes and Photo Mechanic: models/qt/types.go:66-108,
models/crs/types.go:25-55, models/itunes/types.go:27-62, models/pm/model.go:119-197, and of the place of recording in
models/qt/qt_metadata.go:125-164. -/

namespace Xmp.Values

open GoStr Codec

/-! ### Points -/

/-- models/qt/types.go:66-69, models/crs/types.go:26-29 `Point`. -/
structure Point where
  x : Int
  y : Int
deriving DecidableEq, Repr

/-- `fmt.Sscanf(v, "%d?%d", ..)` with a separator that is not a space: the input after the second number is not looked at. -/
def scanPair (sep : Char) (v : Str) : Option Point :=
  match scanInt v with
  | some (x, c :: rest) =>
    if c = sep then
      match scanInt rest with
      | some (y, _) => some ⟨x, y⟩
      | none => none
    else none
  | _ => none

/-- A space of the format, then `%d`: the input must have one or more spaces before the number. -/
def scanGap (s : Str) : Option (Int × Str) := if scanSpaces.any (fun w => hasPrefix s w) then scanInt s else none

/-- `fmt.Sscanf(v, "%d %d", ..)`. -/
def scanBlank (v : Str) : Option Point :=
  match scanInt v with
  | some (x, rest) =>
    match scanGap rest with
    | some (y, _) => some ⟨x, y⟩
    | none => none
  | none => none

/-- models/qt/types.go:74-80 `Point.String`. -/
def qtText (p : Point) : Str := itoa p.x ++ ',' :: itoa p.y

/-- models/qt/types.go:70-72, 103-108 `Point.MarshalText`. -/
def qtMarshal (p : Point) : Str := if p.x = 0 ∧ p.y = 0 then [] else qtText p

/-- models/qt/types.go:82-101 `Point.UnmarshalText`: the format is chosen by the separators that occur in the text. -/
def qtUnmarshal (v : Str) : Option Point :=
  if containsChar v '/' then scanPair '/' v
  else if containsChar v ':' then scanPair ':' v
  else if containsChar v ' ' then scanBlank v
  else if containsChar v ';' then scanPair ';' v
  else scanPair ',' v

/-- models/crs/types.go:35-45 `Point.String`, `Point.MarshalText`. -/
def crsText (p : Point) : Str := itoa p.x ++ ',' :: ' ' :: itoa p.y

/-- models/crs/types.go:47-55 `Point.UnmarshalText`. -/
def crsUnmarshal (v : Str) : Option Point :=
  match scanInt v with
  | some (x, c :: rest) =>
    if c = ',' then
      match scanGap rest with
      | some (y, _) => some ⟨x, y⟩
      | none => none
    else none
  | _ => none

/-! ### Gapless playback -/

/-- models/itunes/types.go:27-32 `SMPB`. -/
structure Smpb where
  delay : Int
  padding : Int
  count : Int
  offset : Int
deriving DecidableEq, Repr

/-- A digit of `strconv.ParseUint` in base 16. -/
def hexDigit (c : Char) : Option Nat :=
  if isDigit c then some (c.toNat - 48)
  else if 'a' ≤ c ∧ c ≤ 'f' then some (c.toNat - 87)
  else if 'A' ≤ c ∧ c ≤ 'F' then some (c.toNat - 55)
  else none

/-- The digits of a number in base 16. -/
def hexVal : Nat → Str → Option Nat
  | n, [] => some n
  | n, c :: cs => (hexDigit c).bind (fun d => hexVal (16 * n + d) cs)

/-- `strconv.ParseInt(s, 16, bits)` after the sign. -/
def hexAbs (bits : Nat) (neg : Bool) (s : Str) : Option Int :=
  if s = [] then none
  else
    match hexVal 0 s with
    | none => none
    | some n =>
      if neg then (if n > 2 ^ (bits - 1) then none else some (-(n : Int)))
      else if n ≥ 2 ^ (bits - 1) then none else some (n : Int)

/-- `strconv.ParseInt(s, 16, bits)`. -/
def parseHex (bits : Nat) (s : Str) : Option Int :=
  match s with
  | '-' :: r => hexAbs bits true r
  | '+' :: r => hexAbs bits false r
  | _ => hexAbs bits false s

/-- One case of the loop in models/itunes/types.go:40-59: a missing field stays zero. -/
def hexField (bits : Nat) (f : List Str) (i : Nat) : Option Int :=
  match f[i]? with
  | none => some 0
  | some v => parseHex bits v

/-- models/itunes/types.go:37-62 `SMPB.UnmarshalText`. -/
def smpb (data : Str) : Option Smpb :=
  match hexField 32 (fields data) 1, hexField 32 (fields data) 2, hexField 64 (fields data) 3, hexField 64 (fields data) 5 with
  | some a, some b, some c, some e => some ⟨a, b, c, e⟩
  | _, _, _, _ => none

/-! ### Photo Mechanic -/

/-- models/pm/model.go:152-158 `Preferences`. -/
structure Prefs where
  tag : Int
  color : Int
  rating : Int
  frame : Int
deriving DecidableEq, Repr

/-- models/pm/model.go:164-174 `Preferences.MarshalText`. -/
def prefsText (p : Prefs) : Str := itoa p.tag ++ ':' :: (itoa p.color ++ ':' :: (itoa p.rating ++ ':' :: itoa p.frame))

/-- models/pm/model.go:176-197 `Preferences.UnmarshalText`. -/
def prefsUnmarshal (data : Str) : Option Prefs :=
  match split ':' data with
  | [a, b, c, d] =>
    match parseInt 64 a, parseInt 64 b, parseInt 64 c, parseInt 64 d with
    | some a, some b, some c, some d => some ⟨a, b, c, d⟩
    | _, _, _, _ => none
  | _ => none

/-- models/pm/model.go:121 `pmTimeFormat`. -/
def pmLayout : Str := "150405-0700".toList

/-- models/pm/model.go:129-138 `Time.MarshalText`. -/
def pmTimeMarshal (t : GoTime) : Str := if t.isZero then [] else t.format pmLayout

/-- models/pm/model.go:140-150 `Time.UnmarshalText`. -/
def pmTimeUnmarshal (old : GoTime) (data : Str) : Option GoTime := if data = [] then some old else timeParse pmLayout data

/-! ### The place of recording -/

/-- models/qt/types.go:49-58 `Location`; the types of dates and of floating point numbers are parameters. -/
structure Loc (δ φ : Type) where
  body : Str
  date : δ
  lon : Str
  lat : Str
  alt : φ
  name : Str
  note : Str
  role : Int
deriving DecidableEq, Repr

/-- models/qt/qt_metadata.go: the fields of `QtMetadata` for the place of recording. -/
structure QtLoc (δ φ : Type) where
  body : Str
  date : δ
  iso : Str
  name : Str
  note : Str
  role : Int
  loc : Option (Loc δ φ)
deriving DecidableEq, Repr

variable {δ φ : Type}

/-- models/qt/qt_metadata.go:125-139 `QtMetadata.SyncFromXMP`; `fmt` prints the altitude. -/
def syncFrom (fmt : φ → Str) (x : QtLoc δ φ) : QtLoc δ φ :=
  match x.loc with
  | none => x
  | some l => {
      x with
      body := l.body
      date := l.date
      iso := join ['+'] [l.lat, l.lon, fmt l.alt]
      name := l.name
      note := l.note
      role := l.role }

/-- models/qt/qt_metadata.go:151-161: the loop over the parts of the coordinates; `read` reads the altitude, whatever it is. -/
def coords (read : Str → φ) (l : Loc δ φ) : List Str → Loc δ φ
  | [] => l
  | [a] => { l with lat := a }
  | [a, b] => { l with lat := a, lon := b }
  | a :: b :: c :: _ => { l with lat := a, lon := b, alt := read (trimSuffix c ['/']) }

/-- models/qt/qt_metadata.go:141-164 `QtMetadata.SyncToXMP`; `zero` is the altitude of a new location. -/
def syncTo (read : Str → φ) (zero : φ) (x : QtLoc δ φ) : QtLoc δ φ :=
  if x.loc.isNone && decide (x.iso ≠ []) && decide (x.name ≠ []) then
    { x with loc := some (coords read ⟨x.body, x.date, [], [], zero, x.name, x.note, x.role⟩ (split '+' x.iso)) }
  else x

end Xmp.Values
