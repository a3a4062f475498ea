import Verif.Model.GoStr

/-!
# iXML production sound metadata (models/ixml)

Flags, sets of take types, places and track functions, the upgrade of old chunks, the start
timecode and what is handed to the dynamic media schema.
-/

namespace Xmp.Ixml

open Xmp Xmp.GoStr

/-! ### Truth values -/

/-- models/ixml/types.go:32-37 `Bool.MarshalText`. -/
def boolText (b : Bool) : Str := if b then "TRUE".toList else "FALSE".toList

/-- models/ixml/types.go:39-49 `Bool.UnmarshalText`; `none` is the error. -/
def boolParse (s : Str) : Option Bool :=
  if toLower s = "true".toList then some true
  else if toLower s = "false".toList then some false
  else none

/-! ### Sets as lists

The types `TakeTypeList`, `LocationTypeList`, `LocationTimeList` and `FunctionSet` are slices of
texts with the same operations; here they are lists of texts.  The functions `ParseTakeType`,
`ParseLocationType` and `ParseLocationTime` (models/ixml/enum.go:72-93, 131-140, 211-232) return
their argument in every branch. -/

/-- models/ixml/enum.go:37-44, 184-191, 276-283, 376-383 `Contains`. -/
def contains (x : List Str) (t : Str) : Bool := x.any (· == t)

/-- models/ixml/enum.go:46-50, 142-146, 234-238, 385-389 `Add`. -/
def add (x : List Str) (t : Str) : List Str := if contains x t then x else x ++ [t]

/-- models/ixml/enum.go:53-58, 149-154, 241-246, 392-397: the loop of `Del` keeps the last place
at which the text is found; `i` is the place of the head and `idx` the place found so far. -/
def lastIdx (t : Str) : List Str → Nat → Option Nat → Option Nat
  | [], _, idx => idx
  | v :: l, i, idx => lastIdx t l (i + 1) (if v = t then some i else idx)

/-- models/ixml/enum.go:52-62, 148-158, 240-250, 391-401 `Del`. -/
def del (x : List Str) (t : Str) : List Str :=
  match lastIdx t x 0 none with
  | some i => x.take i ++ x.drop (i + 1)
  | none => x

/-- models/ixml/enum.go:403-407 `FunctionSet.Merge`, for an argument in memory of its own. -/
def merge (x s : List Str) : List Str := s.foldl add x

/-- models/ixml/enum.go:409-413 `FunctionSet.Sub`, for an argument in memory of its own. -/
def sub (x s : List Str) : List Str := s.foldl del x

/-- models/ixml/enum.go:64-69 `TakeTypeList.IsDefault`. -/
def isDefault (x : List Str) : Bool :=
  if x.length = 0 then true else contains x "DEFAULT".toList

/-- models/ixml/enum.go:95-104, 160-169, 252-261 `MarshalText`; no text for the empty list. -/
def listText (x : List Str) : Str := if x.length = 0 then [] else join [','] x

/-- models/ixml/enum.go:106-117, 171-182, 263-274 `UnmarshalText`.  `strings.Split` never returns an
empty list for a non-empty separator, so the early return is never taken. -/
def listParse (s : Str) : List Str := split ',' s

/-! ### Slices sharing memory

A Go slice is a view of an array.  `cells` is the array, a slice starting at its beginning is given
by its length.  Copying a slice variable copies the length only. -/

/-- What a slice of length `n` over the array shows. -/
def view (cells : List Str) (n : Nat) : List Str := cells.take n

/-- models/ixml/enum.go:391-401 `FunctionSet.Del` on a slice: `append((*x)[:idx], (*x)[idx+1:]...)`
has room, because the result is shorter than the slice, and so moves the cells after `idx` one
place to the front in the same array.  Returns the array and the new length. -/
def delCells (cells : List Str) (n : Nat) (t : Str) : List Str × Nat :=
  match lastIdx t (cells.take n) 0 none with
  | some i => (cells.take i ++ ((cells.take n).drop (i + 1) ++ cells.drop (n - 1)), n - 1)
  | none => (cells, n)

/-- models/ixml/enum.go:385-389 `FunctionSet.Add` on a slice with room after its end (`n` is less
than the size of the array): the cell after the end is written.  Without room `append` allocates a
new array, which is not modelled here: the result is `none`. -/
def addCells (cells : List Str) (n : Nat) (t : Str) : Option (List Str × Nat) :=
  if contains (view cells n) t then some (cells, n)
  else if n < cells.length then some (cells.set n t, n + 1)
  else none

/-- models/ixml/enum.go:409-413 `x.Sub(s)` where `s` is a slice of `m` cells of the same array: the
loop reads the cell `i` when it comes to it. -/
def subCells : Nat → Nat → List Str → Nat → List Str × Nat
  | 0, _, cells, n => (cells, n)
  | k + 1, i, cells, n =>
    let r := delCells cells n (cells.getD i [])
    subCells k (i + 1) r.1 r.2

/-! ### Track functions -/

/-- models/ixml/enum.go:288-289, 363. -/
def functionMS : List Str := ["M-MID_SIDE".toList, "S-MID_SIDE".toList]

/-- models/ixml/enum.go:290-291, 364; the first text ends in a blank. -/
def functionXY : List Str := ["X-X_Y ".toList, "Y-X_Y".toList]

/-- models/ixml/enum.go:300-302, 369. -/
def functionLCR : List Str := ["L-LCR".toList, "C-LCR".toList, "R-LCR".toList]

/-! ### Timecode flags -/

/-- models/ixml/enum.go:423-442 `ParseTimecodeFlag` and `TimecodeFlag.UnmarshalText`. -/
def flagParse (s : Str) : Option Str :=
  let f := if s = "DF".toList then "DF".toList else if s = "NDF".toList then "NDF".toList else []
  if f = [] then none else some f

/-! ### Upgrade of old chunks -/

/-- models/ixml/types.go:51-59 `SyncPoint`, without the XML name and the duration. -/
structure SyncPoint where
  type : Str
  function : Str
  comment : Str
  low : Int
  high : Int
deriving DecidableEq

/-- models/ixml/enum.go:454 `SyncPointPreRecordSamplecount`. -/
def preRecord : Str := "PRE_RECORD_SAMPLECOUNT".toList

/-- models/ixml/types.go:63-70 `SyncPointList.ContainsFunc`. -/
def containsFunc (f : Str) : List SyncPoint → Nat → Option Nat
  | [], _ => none
  | v :: l, i => if v.function = f then some i else containsFunc f l (i + 1)

/-- models/ixml/model.go:70-95 `IXML`: the fields that the upgrade touches, the fields handed to the
dynamic media schema and the comment of the user data (`none` without user data). -/
structure Chunk where
  version : Str
  project : Str
  scene : Str
  roll : Str
  take : Int
  takeType : List Str
  notGood : Bool
  falseStart : Bool
  wildTrack : Bool
  preCount : Int
  circled : Bool
  note : Str
  points : List SyncPoint
  comment : Option Str
deriving DecidableEq

/-- models/ixml/model.go:198-215 `v13_to_v14`. -/
def v13 (x : Chunk) : Chunk :=
  if 0 < x.preCount then
    match containsFunc preRecord x.points 0 with
    | some i =>
      { x with points := x.points.modify i (fun p => { p with low := x.preCount }), preCount := 0 }
    | none =>
      { x with
        points := x.points ++ [{
          type := "RELATIVE".toList, function := preRecord,
          comment := "upgrade from deprecated property root.PRE_RECORD_SAMPLECOUNT".toList,
          low := x.preCount, high := 0 }],
        preCount := 0 }
  else x

/-- models/ixml/model.go:179-196 `v1x_to_v20`. -/
def v1x (x : Chunk) : Chunk :=
  let x := if x.notGood then
    { x with takeType := add x.takeType "NO_GOOD".toList, notGood := false } else x
  let x := if x.falseStart then
    { x with takeType := add x.takeType "FALSE_START".toList, falseStart := false } else x
  let x := if x.wildTrack then
    { x with takeType := add x.takeType "WILD_TRACK".toList, wildTrack := false } else x
  { x with comment := x.comment.map trimSpace }

/-- models/ixml/model.go:169-177 `upgrade`. -/
def upgrade (x : Chunk) : Chunk := v1x (v13 x)

/-! ### Start timecode -/

/-- models/xmp_dm/types.go:548-577 `ParseTimecodeFormat` for the rate `num / den` with positive
`den`.  The code compares the nearest floating point number; here the fraction is exact. -/
def timecodeFormat (num den : Nat) (drop : Bool) : Str :=
  if 23975 * den ≤ 1000 * num ∧ 1000 * num < 23997 * den then "23976Timecode".toList
  else if num = 24 * den then "24Timecode".toList
  else if num = 25 * den then "25Timecode".toList
  else if 2996 * den < 100 * num ∧ 100 * num < 2998 * den then
    if drop then "2997DropTimecode".toList else "2997NonDropTimecode".toList
  else if num = 30 * den then "30Timecode".toList
  else if num = 50 * den then "50Timecode".toList
  else if 5993 * den < 100 * num ∧ 100 * num < 5995 * den then
    if drop then "5994DropTimecode".toList else "5994DropTimecode".toList
  else if num = 60 * den then "60Timecode".toList
  else []

/-- models/ixml/types.go:132-145 `Speed`: the fields that the timecode depends on, as natural
numbers. -/
structure Speed where
  hi : Nat
  lo : Nat
  sampleRate : Nat
  num : Nat
  den : Nat
  flag : Str

/-- models/xmp_dm/types.go:579-587 `Timecode`, with an empty value. -/
structure Start where
  format : Str
  h : Nat
  m : Nat
  s : Nat
  f : Nat
  drop : Bool
deriving DecidableEq

/-- models/ixml/types.go:150-153: the rate, with `Rational.Value` (xmp/xmp_types.go:520-525) of the
timecode rate as an exact fraction. -/
def Speed.rate (x : Speed) : Nat :=
  if x.sampleRate * 1000 = 0 then (if x.den = 0 then 1 else x.num) * 1000 / (if x.den = 0 then 1 else x.den)
  else x.sampleRate * 1000

/-- models/ixml/types.go:147-169 `Speed.XmpTimecode`; `none` is the run-time panic of a division by
zero.  Numbers are natural numbers without overflow. -/
def Speed.timecode (x : Speed) : Option Start :=
  let samples := (x.hi <<< 32 ||| x.lo) * 1000
  let rate := x.rate
  if rate = 0 then none else
  let sec := samples / rate
  let h := sec / 3600
  let m := (sec - h * 3600) / 60
  let s := sec - h * 3600 - m * 60
  let f := samples % rate * x.num / rate / 1000
  let drop := decide (x.flag = "DF".toList)
  some {
    format := timecodeFormat (if x.den = 0 then 1 else x.num) (if x.den = 0 then 1 else x.den) drop
    h := h, m := m, s := s, f := f, drop := drop }

/-- models/xmp_dm/types.go:642-644 `Timecode.IsZero` for a timecode with an empty value: such a
value is left out when the document is written. -/
def Start.isZero (x : Start) : Bool := decide (x.format = [])

/-! ### Exchange with the dynamic media schema -/

/-- The fields of `xmpDM` that are written. -/
structure Dm where
  tapeName : Str
  scene : Str
  trackNumber : Int
  logComment : Str
  projectName : Str
  good : Bool
  artist : Str
deriving DecidableEq

/-- models/ixml/model.go:113-129 `SyncToXMP`, without the fields taken from the speed. -/
def syncTo (x : Chunk) (d : Dm) : Dm :=
  { d with
    tapeName := x.roll
    scene := x.scene
    trackNumber := x.take
    logComment := x.note
    projectName := x.project
    good := x.circled }

end Xmp.Ixml
