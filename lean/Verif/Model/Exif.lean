import Verif.Model.GoFields
import Verif.Model.Date
import Verif.Model.Codec
import Verif.Model.Semver
import Verif.Model.TypeInfo

/-! Model of models/exif/types.go: values of Exif tags as text, and of the conversions between Exif tags and XMP
properties in models/exif/model.go.  Coordinates are in `Model/Gps.lean`. -/

namespace Xmp.Exif

open GoStr

/-! ### Byte arrays -/

/-- models/exif/types.go:34-44 `ByteArray.String`, `ByteArray.MarshalText`. -/
def bytesText (x : List Nat) : Str := join [' '] (x.map natToStr)

/-- The loop models/exif/types.go:52-58: `strconv.ParseUint(v, 10, 8)` for each word. -/
def parseBytes : List Str → Option (List Nat)
  | [] => some []
  | v :: vs =>
    match parseUint 8 v with
    | none => none
    | some j => (parseBytes vs).map (j :: ·)

/-- models/exif/types.go:46-61 `ByteArray.UnmarshalText`; `old` is the value before. -/
def bytesParse (old : List Nat) (data : Str) : Option (List Nat) :=
  if fields data = [] then some old else parseBytes (fields data)

/-! ### Dates -/

/-- models/exif/types.go:30. -/
def exifDateLayout : Str := "2006:01:02 15:04:05".toList

/-- models/exif/types.go:88-102. -/
def exifDateFormats : List Str := [
  "2006-01-02T15:04:05.999999999".toList,
  "2006-01-02T15:04:05.999999999Z07:00".toList,
  "2006-01-02T15:04:05.999999999Z".toList,
  "2006-01-02T15:04:05Z".toList,
  "2006-01-02T15:04:05".toList,
  "2006-01-02T15:04".toList,
  "2006:01:02 15:04:05.999999999-07:00".toList,
  "2006:01:02 15:04:05-07:00".toList,
  "2006:01:02 15:04:05".toList,
  "2006:01:02 15:04".toList,
  "2006:01:02".toList,
  "2006:01".toList,
  "2006".toList]

/-- models/exif/types.go:77-82 `Date.MarshalText`; `none` is no text. -/
def exifDateText (t : GoTime) : Option Str := if t.isZero then none else some (t.format exifDateLayout)

/-- models/exif/types.go:84-86 `Date.MarshalXMP`: the text that is written into the document. -/
def exifDateXMP (t : GoTime) : Str := t.format exifDateLayout

/-- models/exif/types.go:104-116 `Date.UnmarshalText`. -/
def exifDateParse (old : GoTime) (data : Str) : Option GoTime :=
  if data = [] then some old else firstParse data exifDateFormats

/-- models/exif/types.go:118-135 `convertDateToXMP`: the date and whether there is an error.  Simplified: the last branch
keeps the zone of the date. -/
def convertDate (d : GoTime) (s : Str) : GoTime × Bool :=
  if d.isZero then (zeroDate, false)
  else
    let s := trimSpace s
    if s ≠ [] then (d, false)
    else
      match parseInt 64 s with
      | none => (d, true)
      | some i => ({ d with nsec := (i * 10 ^ (9 - s.length)).toNat }, false)

/-! ### Tables -/

/-- The outcome of `make([]T, 0, n)` for elements of `size` bytes: sizes that are negative or above the address space
(2^48 bytes on 64-bit machines) panic. -/
def makeOk (size n : Int) : Bool := 0 ≤ n ∧ n * size ≤ 2 ^ 48

/-- models/exif/types.go:211-215, 262-266. -/
structure Grid (α : Type) where
  columns : Int := 0
  rows : Int := 0
  values : List α := []
deriving DecidableEq, Repr

/-- models/exif/types.go:217-219, 268-270 `IsZero`. -/
def Grid.isZero {α : Type} (x : Grid α) : Bool := x.columns = 0 || x.rows = 0

/-- The loops models/exif/types.go:231-250, 282-297 over the words; `size` is the size of a value, `one` reads a value. -/
def gridLoop {α : Type} (size : Int) (one : Str → Option α) : Nat → List Str → Grid α → Res (Grid α)
  | _, [], g => .ok g
  | 0, v :: vs, g =>
    match atoi v with
    | none => .err
    | some c => gridLoop size one 1 vs { g with columns := c }
  | 1, v :: vs, g =>
    match atoi v with
    | none => .err
    | some r =>
      if makeOk size (wrap64 (g.columns * r)) then gridLoop size one 2 vs { g with rows := r, values := [] } else .panic
  | i + 2, v :: vs, g =>
    match one v with
    | none => .err
    | some j => gridLoop size one (i + 3) vs { g with values := g.values ++ [j] }

/-- models/exif/types.go:228-252 `CFAPattern.UnmarshalText`. -/
def cfaParse (data : Str) : Res (Grid Nat) := gridLoop 1 (parseUint 8) 0 (fields data) {}

/-- models/exif/types.go:279-299 `DeviceSettings.UnmarshalText`. -/
def deviceParse (data : Str) : Res (Grid Str) := gridLoop 16 some 0 (fields data) {}

/-- models/exif/types.go:159-164. -/
structure Oecf where
  columns : Int := 0
  rows : Int := 0
  names : List Str := []
  values : List Codec.Rational := []
deriving DecidableEq

/-- models/exif/types.go:166-168 `OECF.IsZero`. -/
def Oecf.isZero (x : Oecf) : Bool := x.columns = 0 || x.rows = 0

/-- The loop models/exif/types.go:180-202; `dec` reads rationals with a point (see `Codec.ratParse`). -/
def oecfLoop (dec : Str → Option Codec.Rational) : Nat → List Str → Oecf → Res Oecf
  | _, [], o => .ok o
  | i, v :: vs, o =>
    if i = 0 then
      match atoi v with
      | none => .err
      | some c => if makeOk 16 c then oecfLoop dec (i + 1) vs { o with columns := c, names := [] } else .panic
    else if i = 1 then
      match atoi v with
      | none => .err
      | some r =>
        if makeOk 16 (wrap64 (o.columns * r)) then oecfLoop dec (i + 1) vs { o with rows := r, values := [] } else .panic
    else if i > 1 ∧ (i : Int) < wrap64 (o.columns + 1) then oecfLoop dec (i + 1) vs { o with names := o.names ++ [v] }
    else
      match Codec.ratParse dec ⟨0, 0⟩ v with
      | none => .err
      | some r => oecfLoop dec (i + 1) vs { o with values := o.values ++ [r] }

/-- models/exif/types.go:177-204 `OECF.UnmarshalText`. -/
def oecfParse (dec : Str → Option Codec.Rational) (data : Str) : Res Oecf := oecfLoop dec 0 (fields data) {}

/-! ### Flash -/

/-- models/exif/types.go:309-315. -/
structure Flash where
  fired : Bool := false
  function : Bool := false
  mode : Nat := 0
  redEyeMode : Bool := false
  ret : Nat := 0
deriving DecidableEq, Repr

/-- An `int64` as 64 bits. -/
def bits64 (v : Int) : Nat := (v % 2 ^ 64).toNat

/-- models/exif/types.go:321-335 `Flash.UnmarshalText`. -/
def flashParse (old : Flash) (data : Str) : Option Flash :=
  if data = [] then some old
  else
    match parseInt 32 data with
    | none => none
    | some v => some {
        fired := bits64 v &&& 0x01 > 0
        ret := bits64 v >>> 1 &&& 0x3
        mode := bits64 v >>> 3 &&& 0x03
        function := bits64 v &&& 0x20 > 0
        redEyeMode := bits64 v &&& 0x40 > 0 }

/-! ### Exif tags and XMP properties -/

/-- models/exif/model.go:333-341: an Exif date `d` with its sub-seconds `s` becomes the XMP date; `old` is the XMP date
before, errors are ignored. -/
def toXmpDate (old d : GoTime) (s : Str) : GoTime := if d.isZero then old else (convertDate d s).1

/-- models/exif/model.go:268-271, 289-293, 322-326: an XMP date `x` becomes the Exif date and its sub-seconds; `old` are the
Exif values before. -/
def fromXmpDate (old : GoTime × Str) (x : GoTime) : GoTime × Str := if x.isZero then old else (x, itoa x.nsec)

/-- models/exif/model.go:342-344: the artists as list; `old` is the list before. -/
def toXmpArtists (old : List Str) (artist : Str) : List Str := if artist ≠ [] then split ';' artist else old

/-- models/exif/model.go:281-282: the creators of the document as artist. -/
def fromXmpArtists (creator : List Str) : Str := join [','] creator

/-- models/exif/model.go:294-297: the tool that made the file; `sw` is the software tag before. -/
def fromXmpSoftware (sw creatorTool : Str) : Str := if creatorTool = [] then creatorTool else sw

/-- models/exif/model.go:351-353. -/
def toXmpSoftware (creatorTool sw : Str) : Str := if sw ≠ [] ∧ creatorTool = [] then sw else creatorTool

end Xmp.Exif
