import Verif.Model.TypedXmp

/-! The list `tiff.YCbCrSubSampling`, which has an `IsZero` method of its own. -/

namespace Xmp.Tiff

open GoStr

/-- models/tiff/types.go:24-48 `YCbCrSubSampling.String`. -/
def subSamplingText (x : List Int) : Str :=
  match x with
  | a :: b :: _ =>
    if a = 1 ∧ b = 1 then "4:4:4".toList
    else if a = 1 ∧ b = 2 then "4:4:0".toList
    else if a = 1 ∧ b = 4 then "4:4:1".toList
    else if a = 2 ∧ b = 1 then "4:2:2".toList
    else if a = 2 ∧ b = 2 then "4:2:0".toList
    else if a = 2 ∧ b = 4 then "4:2:1".toList
    else if a = 4 ∧ b = 1 then "4:1:1".toList
    else if a = 4 ∧ b = 2 then "4:1:0".toList
    else "undefined".toList
  | _ => "undefined".toList

/-- models/tiff/types.go:50-52 `YCbCrSubSampling.IsZero`. -/
def subSamplingIsZero (x : List Int) : Bool :=
  match x with
  | a :: b :: _ => a = 0 && b = 0
  | _ => true

/-- The type of the list, models/tiff/types.go:21, 54-56. -/
def subSamplingTy : Ty := .slice .ordered (.int 64)

/-- The list as a value. -/
def subSamplingVal (x : List Int) : Val := .slice (x.map .int) []

/-- xmp/marshal.go:434-487 with models/tiff/types.go:58-60 `MarshalXMP` for a field of this type: nothing is written for a list that
counts as zero. -/
def writeSubSampling (x : List Int) (name : QName) (parent : Node) : Option Node :=
  if subSamplingIsZero x then some parent else (marshalValue subSamplingTy (subSamplingVal x) (Node.new name)).map parent.addNode

/-- models/tiff/types.go:62-64 `UnmarshalXMP` into an empty list. -/
def readSubSampling (d : Dec) (dv : Version) (node : Node) : Res Val := decodeElement d dv node subSamplingTy subSamplingTy.zero

end Xmp.Tiff
