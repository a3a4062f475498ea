import Verif.Model.GoStr

/-! Model of the text forms of the media types: models/xmp_dm/types.go, and of the content ratings of
models/itunes/types.go and models/qt/types.go.  `none` is an error. -/

namespace Xmp.Media

open GoStr

/-! ### Frame rates and counts -/

/-- models/xmp_dm/types.go:316-319. -/
structure FrameRate where
  rate : Int
  base : Int
deriving DecidableEq, Repr

/-- models/xmp_dm/types.go:339-341 `FrameRate.IsZero`. -/
def FrameRate.isZero (x : FrameRate) : Bool := decide (x.base = 0) || decide (x.rate = 0)

/-- models/xmp_dm/types.go:328-337 `FrameRate.String`. -/
def FrameRate.text (x : FrameRate) : Str :=
  'f' :: itoa x.rate ++ (if x.base > 1 then 's' :: itoa x.base else [])

/-- models/xmp_dm/types.go:343-366 `FrameRate.UnmarshalText`. -/
def FrameRate.parse (data : Str) : Option FrameRate :=
  if hasPrefix data ['f'] = false then none
  else
    match split 's' (data.drop 1) with
    | [] => none
    | [a] =>
      match parseInt 64 a with
      | some r => some ⟨r, 1⟩
      | none => none
    | a :: b :: _ =>
      match parseInt 64 a, parseInt 64 b with
      | some r, some n => some ⟨r, if n = 0 then 1 else n⟩
      | _, _ => none

/-- models/xmp_dm/types.go:181-184. -/
structure FrameCount where
  count : Int
  rate : FrameRate
deriving DecidableEq, Repr

/-- The zero value of a frame count. -/
def FrameCount.zero : FrameCount := ⟨0, ⟨0, 0⟩⟩

/-- models/xmp_dm/types.go:186-188 `FrameCount.IsZero`. -/
def FrameCount.isZero (x : FrameCount) : Bool := decide (x.count = 0) && x.rate.isZero

/-- models/xmp_dm/types.go:190-195 `FrameCount.Sub` (without overflow). -/
def FrameCount.sub (x y : FrameCount) : FrameCount := ⟨x.count - y.count, x.rate⟩

/-- models/xmp_dm/types.go:201-226 `FrameCount.UnmarshalText`. -/
def FrameCount.parse (data : Str) : Option FrameCount :=
  let num (v : Str) (r : FrameRate) : Option FrameCount :=
    if v = "maximum".toList then some ⟨-1, r⟩
    else (parseInt 64 v).map (fun n => ⟨n, r⟩)
  match indexChar 'f' data with
  | none => num data ⟨1, 1⟩
  | some i =>
    match FrameRate.parse (data.drop i) with
    | none => none
    | some r => num (data.take i) r

/-- models/xmp_dm/types.go:228-240 `FrameCount.String`. -/
def FrameCount.text (x : FrameCount) : Str :=
  if x.count = 0 then "0".toList
  else if x.count = -1 then "maximum".toList
  else itoa x.count ++ x.rate.text

/-! ### Parts -/

/-- models/xmp_dm/types.go:36-40. -/
structure Part where
  path : Str
  start : FrameCount
  duration : FrameCount
deriving DecidableEq, Repr

/-- The zero value of a part. -/
def Part.zero : Part := ⟨[], .zero, .zero⟩

/-- models/xmp_dm/types.go:111-127 `Part.MarshalText`. -/
def Part.text (x : Part) : Str :=
  let path := if x.path ≠ [] ∧ hasSuffix x.path ['/'] = false then x.path ++ ['/'] else x.path
  if x.duration.isZero then path
  else path ++ "time:".toList ++ (if x.start.isZero then [] else x.start.text ++ ['d']) ++ x.duration.text

/-- `strings.Split(v, sep)` for a separator of several bytes: the first two parts, as far as they exist; the
others are not used. -/
def splitTwo (sep v : Str) : Str × Option Str :=
  match index sep v with
  | none => (v, none)
  | some i =>
    let rest := v.drop (i + sep.length)
    match index sep rest with
    | none => (v.take i, some rest)
    | some j => (v.take i, some (rest.take j))

/-- The part after `time:`, models/xmp_dm/types.go:81-104. -/
def Part.parseTime (path t : Str) : Option Part :=
  match indexChar 'd' t with
  | some i =>
    match FrameCount.parse (t.take i), FrameCount.parse (t.drop (i + 1)) with
    | some s, some d => some ⟨path, s, d⟩
    | _, _ => none
  | none =>
    match indexChar 'r' t with
    | some i =>
      match FrameCount.parse (t.take i), FrameCount.parse (t.drop (i + 1)) with
      | some s, some e => some ⟨path, s, e.sub s⟩
      | _, _ => none
    | none => (FrameCount.parse t).map (fun d => ⟨path, .zero, d⟩)

/-- models/xmp_dm/types.go:75-109 `Part.UnmarshalText`. -/
def Part.parse (v : Str) : Option Part :=
  match splitTwo "time:".toList v with
  | (path, none) => some ⟨path, .zero, .zero⟩
  | (path, some t) => Part.parseTime path t

/-- models/xmp_dm/types.go:159-169 `PartList.MarshalText`. -/
def partsText (x : List Part) : Str :=
  join [';'] (x.map (fun p => if hasPrefix p.text ['/'] then p.text else '/' :: p.text))

/-- models/xmp_dm/types.go:146-157 `PartList.UnmarshalText`. -/
def partsParse (data : Str) : Option (List Part) := (split ';' data).mapM Part.parse

/-! ### Timecodes -/

/-- models/xmp_dm/types.go:579-587; the format is left out. -/
structure Timecode where
  value : Str
  h : Int
  m : Int
  s : Int
  f : Int
  drop : Bool
deriving DecidableEq, Repr

/-- A number with at least two places, e.g. models/xmp_dm/types.go:595-598. -/
def pad2 (n : Int) : Str := (if n < 10 then ['0'] else []) ++ itoa n

/-- models/xmp_dm/types.go:590-592, 618-620. -/
def Timecode.sep (x : Timecode) : Char := if x.drop then ';' else ':'

/-- models/xmp_dm/types.go:589-615 `Timecode.String`. -/
def Timecode.text (x : Timecode) : Str :=
  pad2 x.h ++ x.sep :: (pad2 x.m ++ x.sep :: (pad2 x.s ++ x.sep :: pad2 x.f))

/-- models/xmp_dm/types.go:617-640 `Timecode.Unpack`: the fields are set from the value. -/
def Timecode.unpack (x : Timecode) : Option Timecode :=
  match split x.sep x.value with
  | a :: b :: c :: d :: _ =>
    match atoi a, atoi b, atoi c, atoi d with
    | some h, some m, some s, some f => some { x with h := h, m := m, s := s, f := f }
    | _, _, _, _ => none
  | _ => none

/-- models/xmp_dm/types.go:695-706 (and 662-673): a timecode from the text of its value. -/
def Timecode.ofValue (v : Str) : Option Timecode :=
  let v := if v = [] then "00:00:00:00".toList else v
  Timecode.unpack { value := v, h := 0, m := 0, s := 0, f := 0, drop := containsChar v ';' }

/-! ### Media time -/

/-- `strconv.Atoi` with ignored error: on a range error the result is the largest or smallest integer;
simplified: 0 in all cases of an error. -/
def atoi0 (s : Str) : Int := (atoi s).getD 0

/-- models/xmp_dm/types.go:523-535: hours, minutes and seconds in seconds. -/
def clockSeconds : List Str → Int
  | [a, b, c] => atoi0 a * 3600 + atoi0 b * 60 + atoi0 c
  | [b, c] => atoi0 b * 60 + atoi0 c
  | [c] => atoi0 c
  | _ => 0

/-- models/xmp_dm/types.go:517-522: the fraction in nanoseconds.  More than nine digits count as none (`math.Pow10`
of a negative number, converted to an integer, is 0). -/
def clockFraction : List Str → Int
  | _ :: b :: _ =>
    match parseInt 64 b with
    | some i => i * (if b.length ≤ 9 then 10 ^ (9 - b.length) else 0)
    | none => 0
  | _ => 0

/-- models/xmp_dm/types.go:513-544 `MediaTime.UnmarshalXMPAttr`: the value in milliseconds, without overflow. -/
def mediaTimeValue (v : Str) : Int :=
  (clockFraction (split '.' v) + clockSeconds (split ':' ((split '.' v).headD [])) * 1000000000).tdiv 1000000

/-! ### Content ratings -/

/-- models/itunes/types.go:70-75, models/qt/types.go:110-115. -/
structure ContentRating where
  standard : Str
  rating : Str
  score : Str
  reasons : Str
deriving DecidableEq, Repr

/-- models/itunes/types.go:77-79 `ContentRating.IsZero`. -/
def ContentRating.isZero (x : ContentRating) : Bool := decide (x.standard = []) && decide (x.rating = [])

/-- models/itunes/types.go:81-92 `ContentRating.String`. -/
def ContentRating.text (x : ContentRating) : Str :=
  '(' :: x.standard ++ '|' :: x.rating ++ '|' :: x.score ++ '|' :: x.reasons

/-- models/itunes/types.go:116-121, models/qt/types.go:156-161 `ContentRating.MarshalText`. -/
def ContentRating.marshal (x : ContentRating) : Str := if x.isZero then [] else x.text

/-- The numbered fields 1 to 4 of a list, models/itunes/types.go:100-111. -/
def ContentRating.ofFields (l : List Str) : ContentRating :=
  ⟨l.getD 1 [], l.getD 2 [], l.getD 3 [], l.getD 4 []⟩

/-- models/itunes/types.go:94-114 `ContentRating.UnmarshalText`. -/
def ContentRating.parse (data : Str) : ContentRating :=
  ContentRating.ofFields (split '|' (trimSuffix (trimPrefix (trimSpace data) ['(']) [')']))

end Xmp.Media
