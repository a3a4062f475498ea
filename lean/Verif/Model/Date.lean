import Verif.Model.GoTime

/-! Model of dates and times of day, xmp/xmp_types.go:89-293, on top of Go's package `time` (`Model/GoTime.lean`). -/

namespace Xmp

open GoStr

/-- `time.RFC3339`. -/
def rfc3339 : Str := "2006-01-02T15:04:05Z07:00".toList

/-- xmp/xmp_types.go:122-153 `dateFormats`. -/
def dateFormats : List Str := [
  "2006-01-02T15:04:05.999999999".toList,
  rfc3339,
  "2006-01-02T15:04-07:00".toList,
  "2006-01-02".toList,
  "2006-01-02 15:04:05".toList,
  "2006-01-02T15:04:05.999999999Z07:00".toList,
  "2006-01-02T15:04:05.999999999Z".toList,
  "2006-01-02T15:04:05Z".toList,
  "2006-01-02T15:04:05-0700".toList,
  "2006:01:02 15:04:05.999".toList,
  "2006/01/02T15:04:05-07:00".toList,
  "06/01/02T15:04:05-07:00".toList,
  "20060102T15h04m05-07:00".toList,
  "20060102T15h04m05s-07:00".toList,
  "2006-01-02T15:04:05".toList,
  "2006-01-02T15:04Z".toList,
  "2006-01-02T15:04".toList,
  "2006-01-02 15:04".toList,
  "2006:01:02".toList,
  "2006-01".toList,
  "2006".toList,
  "15:04:05-07:00".toList,
  "15:04:05".toList,
  "150405-0700".toList,
  "2006-01-02T00:00:00.000000000".toList,
  "2006-01-00T00:00:00.000000000".toList,
  "2006-00-00T00:00:00.000000000".toList,
  "2006-01-02T00:00:00Z".toList,
  "2006-01-00T00:00:00Z".toList,
  "2006-00-00T00:00:00Z".toList]

/-- xmp/xmp_types.go:155-158 `illegalZero`. -/
def illegalZero : List Str := ["--".toList, "00/00/00T00:00:00+00:00".toList]

/-- The characters that xmp/xmp_types.go:173-187 looks for. -/
def isSign (c : Char) : Bool := c = '+' || c = '-' || c = 'Z'

/-- xmp/xmp_types.go:165-189 `repairTZ`. -/
def repairTZ (v : Str) : Str :=
  if v ∈ illegalZero then "0001-01-01T00:00:00Z".toList
  else if v.length < 20 then v
  else
    let l := v.length
    let sign (k : Nat) : Bool := (v[l - k]?.map isSign).getD false
    if sign 5 then v.take (l - 4) ++ '0' :: v.drop (l - 4)
    else if sign 2 then v.take (l - 1) ++ '0' :: v.drop (l - 1) ++ ":00".toList
    else if sign 6 ∧ ':' ∉ v.drop (l - 6) then v.take (l - 5) ++ v.drop (l - 4)
    else v

/-- The loop xmp/xmp_types.go:194-198, 273-277: the first layout that fits. -/
def firstParse (v : Str) : List Str → Option GoTime
  | [] => none
  | f :: fs =>
    match timeParse f v with
    | some t => some t
    | none => firstParse v fs

/-- xmp/xmp_types.go:191-201 `ParseDate`; `none` is an error. -/
def parseDate (v : Str) : Option GoTime := if v ≠ [] then firstParse (repairTZ v) dateFormats else none

/-- The zero value `Date{}`. -/
def zeroDate : GoTime := {}

/-- xmp/xmp_types.go:107-109 `Date.String`. -/
def dateString (t : GoTime) : Str := t.format rfc3339

/-- xmp/xmp_types.go:115-120 `Date.MarshalText`; `none` is a nil text. -/
def dateMarshal (t : GoTime) : Option Str := if t.isZero then none else some (dateString t)

/-- xmp/xmp_types.go:203-214 `Date.UnmarshalText`: the new value; `none` is an error. -/
def dateUnmarshal (data : Str) : Option GoTime := if data = [] then some zeroDate else parseDate data

/-- The layout that times are written in, xmp/xmp_types.go:251. -/
def timeLayout : Str := "15:04:05-07:00".toList

/-- xmp/xmp_types.go:265-269 `timeFormats`. -/
def timeFormats : List Str := ["15:04:05-07:00".toList, "15:04:05".toList, "150405-0700".toList]

/-- xmp/xmp_types.go:250-252 `Time.String`. -/
def timeString (t : GoTime) : Str := t.format timeLayout

/-- xmp/xmp_types.go:258-263 `Time.MarshalText`. -/
def timeMarshal (t : GoTime) : Option Str := if t.isZero then none else some (timeString t)

/-- xmp/xmp_types.go:271-280 `ParseTime`. -/
def parseTime (v : Str) : Option GoTime := if v ≠ [] then firstParse v timeFormats else none

/-- xmp/xmp_types.go:282-292 `Time.UnmarshalText`: the new value, given the old one; `none` is an error. -/
def timeUnmarshal (old : GoTime) (data : Str) : Option GoTime := if data = [] then some old else parseTime data

end Xmp
