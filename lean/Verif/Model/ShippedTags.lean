import Verif.Model.ShippedTypes
import Verif.Model.Riff
import Verif.Model.Id3

/-! Access to the shipped models by the tags of file formats: `CanTag`, `GetTag`, `SetTag`, `GetLocaleTag`, `SetLocaleTag` and
`ListTags` of all models of the packages.  The tag of a field is the part of its struct tag under the name of the first
namespace of the model (xmp/native.go:402-408).

The second part of this file is a table of the fields of all models, made from the struct definitions. -/

namespace Xmp.Shipped

open GoStr

/-- What matters about the type of a field when it is read or set by a tag (xmp/native.go:65-174): numbers, truth values and
strings without methods of their own; byte slices; types with `MarshalText` and `UnmarshalText`, and numbers that have one of
them (or are floating point numbers); `xmp.StringList` and `xmp.StringArray`; `xmp.AltString`; other slices without methods;
types with `UnmarshalText` whose values are no numbers or strings and have no `MarshalText`; the same, where `UnmarshalText`
does nothing (`return nil`, e.g. models/id3/types.go:429-432); structs without these methods; fixed arrays and structs
without `IsZero`, which are never empty (xmp/marshal.go:497-517), with or without `UnmarshalText`; pointers.

Simplified: slices and structs without text are described by their emptiness only. -/
inductive NTy where
  | int (bits : Nat)
  | uint (bits : Nat)
  | bool
  | str
  | bytes
  | text (name : Str)
  | strs (typ : ArrayType)
  | alt
  | list (name : Str)
  | setOnly (name : Str)
  | stub (name : Str)
  | mute (name : Str)
  | solid (name : Str) (reads : Bool)
  | ptr (t : NTy)
deriving DecidableEq

/-- The type in the form of Model/Typed.lean; `K` has the text forms of the types with methods. -/
def NTy.ty (K : Str → Codec) : NTy → Ty
  | .int b => .int b
  | .uint b => .uint b
  | .bool => .bool
  | .str => .str
  | .bytes => .bytes
  | .text n => .text (K n)
  | .strs a => .slice a .str
  | .alt => .alt
  | .list n => .slice .ordered (.text (K n))
  | .setOnly n => .text { K n with enc := fun _ => none }
  | .stub n => .text { K n with enc := fun _ => none, dec := fun v _ => some v }
  | .mute n => .text { K n with enc := fun _ => none, dec := fun _ _ => none }
  | .solid n true => .text { K n with enc := fun _ => none, empty := fun _ => false, hasIsZero := false }
  | .solid n false =>
    .text { K n with enc := fun _ => none, dec := fun _ _ => none, empty := fun _ => false, hasIsZero := false }
  | .ptr t => .ptr (t.ty K)

/-- A field of a struct: its name, the parts of its struct tag by key, its type. -/
structure Row where
  field : Str
  tags : List (Str × Str)
  ty : NTy

/-- What the methods of a model do with the name of a tag before they look for a field: nothing; make it lower case, except
in `CanTag` (models/exif/model.go:378-415); map it to the names of version 2.4, except in `SetLocaleTag`
(models/id3/model.go:435-486). -/
inductive NameMap where
  | asIs
  | exif
  | id3
deriving DecidableEq

/-- A model with its type, the name of its first namespace and its fields. -/
structure TagModel where
  typ : Str
  ns : Str
  names : NameMap
  rows : List Row

/-- `reflect.StructTag.Get`: the first part with the key. -/
def Row.get (r : Row) (key : Str) : Str := (r.tags.lookup key).getD []

/-- A field for `reflect`.  The interfaces of its type do not matter here. -/
def Row.goField (r : Row) : GoField :=
  { name := r.field, exported := true, anonymous := false, ty := 1, impls := [], tag := r.get }

namespace TagModel

/-- The fields for `reflect`. -/
def goFields (m : TagModel) : List GoField := m.rows.map Row.goField

/-- The fields that xmp/typeinfo.go:155-157 does not leave out. -/
def kept (m : TagModel) : List Row := m.rows.filter (fun r => !skipField r.goField m.ns)

/-- Their types. -/
def tys (K : Str → Codec) (m : TagModel) : List Ty := m.kept.map (fun r => r.ty.ty K)

/-- The metadata of the fields (xmp/native.go:353-357), none if there is an error. -/
def infos (m : TagModel) : Option (List FieldInfo) :=
  match Riff.structInfo m.ns m.goFields 0 [] with
  | .ok l => some (l.map Riff.toField)
  | _ => none

/-- The name that `GetTag` and `SetTag` look for; `none` is an error. -/
def name (m : TagModel) (tag : Str) : Option Str :=
  match m.names with
  | .asIs => some tag
  | .exif => some (toLower tag)
  | .id3 => Id3.mapTag tag

/-- `GetTag` of the models, e.g. models/dc/model.go:97-103; `none` is an error. -/
def getTag (m : TagModel) (K : Str → Codec) (v : Val) (tag : Str) : Option Str :=
  match m.name tag with
  | some t => Riff.getTag m.ns m.goFields (m.tys K) v t
  | none => none

/-- `SetTag` of the models, e.g. models/dc/model.go:105-110: the value after the call, and whether there was no error. -/
def setTag (m : TagModel) (K : Str → Codec) (v : Val) (tag value : Str) : Val × Bool :=
  match m.name tag with
  | some t => Riff.setTag m.ns m.goFields (m.tys K) v t value
  | none => (v, false)

/-- `CanTag` of the models, e.g. models/dc/model.go:92-95.  That of `ExifInfo` (models/exif/model.go:378-381) looks for the name
as it is. -/
def canTag (m : TagModel) (K : Str → Codec) (v : Val) (tag : Str) : Bool :=
  match m.names with
  | .exif => (Riff.getTag m.ns m.goFields (m.tys K) v tag).isSome
  | _ => (m.getTag K v tag).isSome

/-- `GetLocaleTag` of models/exif/model.go:400-407 and models/id3/model.go:469-479. -/
def getLocaleTag (m : TagModel) (K : Str → Codec) (v : Val) (lang tag : Str) : Res Str :=
  match m.name tag with
  | some t =>
    match m.infos with
    | some l => getLocale (.struct none l (m.tys K)) v lang t
    | none => .err
  | none => .err

/-- `SetLocaleTag` of models/exif/model.go:409-415 and models/id3/model.go:481-486, which does not map the name. -/
def setLocaleTag (m : TagModel) (K : Str → Codec) (v : Val) (lang tag value : Str) : Val × SetRes :=
  match (if m.names = .id3 then some tag else m.name tag) with
  | some t =>
    match m.infos with
    | some l => setLocale (.struct none l (m.tys K)) v lang t value
    | none => (v, .err)
  | none => (v, .err)

/-- `ListTags` of models/id3/model.go:489-495, models/itunes/model.go:95-101, models/mp4/model.go:97-103. -/
def listTags (m : TagModel) (K : Str → Codec) (v : Val) : Res (List Tag) :=
  Riff.listTags m.ns m.goFields (m.tys K) v

end TagModel

/-! ### The models -/


/-- models/cc/model.go:57-62, methods models/cc/model.go:84-102. -/
def m_cc : TagModel where
  typ := chars!"cc.CC"
  ns := chars!"cc"
  names := .asIs
  rows :=
    [⟨chars!"License", [], .str⟩, ⟨chars!"MorePermissions", [], .str⟩, ⟨chars!"AttributionURL", [], .str⟩,
     ⟨chars!"AttributionName", [], .str⟩]

/-- models/crs/model.go:52-250, methods models/crs/model.go:272-290. -/
def m_crs : TagModel where
  typ := chars!"crs.CameraRawInfo"
  ns := chars!"crs"
  names := .asIs
  rows :=
    [⟨chars!"AutoBrightness", [], .text chars!"xmp.Bool"⟩, ⟨chars!"AutoContrast", [], .text chars!"xmp.Bool"⟩,
     ⟨chars!"AutoExposure", [], .text chars!"xmp.Bool"⟩, ⟨chars!"AutoShadows", [], .text chars!"xmp.Bool"⟩,
     ⟨chars!"BlueHue", [], .int 64⟩, ⟨chars!"BlueSaturation", [], .int 64⟩, ⟨chars!"Brightness", [], .int 64⟩,
     ⟨chars!"CameraProfile", [], .str⟩, ⟨chars!"ChromaticAberrationB", [], .int 64⟩,
     ⟨chars!"ChromaticAberrationR", [], .int 64⟩, ⟨chars!"ColorNoiseReduction", [], .int 64⟩,
     ⟨chars!"Contrast", [], .int 64⟩, ⟨chars!"CropTop", [], .text chars!"float32"⟩,
     ⟨chars!"CropLeft", [], .text chars!"float32"⟩, ⟨chars!"CropBottom", [], .text chars!"float32"⟩,
     ⟨chars!"CropRight", [], .text chars!"float32"⟩, ⟨chars!"CropAngle", [], .text chars!"float32"⟩,
     ⟨chars!"CropWidth", [], .text chars!"float32"⟩, ⟨chars!"CropHeight", [], .text chars!"float32"⟩,
     ⟨chars!"CropUnits", [], .int 64⟩, ⟨chars!"Exposure", [], .text chars!"float32"⟩, ⟨chars!"GreenHue", [], .int 64⟩,
     ⟨chars!"GreenSaturation", [], .int 64⟩, ⟨chars!"HasCrop", [], .text chars!"xmp.Bool"⟩,
     ⟨chars!"HasSettings", [], .text chars!"xmp.Bool"⟩, ⟨chars!"LuminanceSmoothing", [], .int 64⟩,
     ⟨chars!"RawFileName", [], .str⟩, ⟨chars!"RedHue", [], .int 64⟩, ⟨chars!"RedSaturation", [], .int 64⟩,
     ⟨chars!"Saturation", [], .int 64⟩, ⟨chars!"Shadows", [], .int 64⟩, ⟨chars!"ShadowTint", [], .int 64⟩,
     ⟨chars!"Sharpness", [], .int 64⟩, ⟨chars!"Temperature", [], .int 64⟩, ⟨chars!"Tint", [], .int 64⟩,
     ⟨chars!"ToneCurve", [], .strs .unordered⟩, ⟨chars!"ToneCurveName", [], .str⟩, ⟨chars!"Version", [], .str⟩,
     ⟨chars!"VignetteAmount", [], .int 64⟩, ⟨chars!"VignetteMidpoint", [], .int 64⟩, ⟨chars!"WhiteBalance", [], .str⟩,
     ⟨chars!"AlreadyApplied", [], .text chars!"xmp.Bool"⟩, ⟨chars!"Dehaze", [], .int 64⟩, ⟨chars!"Converter", [], .str⟩,
     ⟨chars!"MoireFilter", [], .str⟩, ⟨chars!"Smoothness", [], .int 64⟩, ⟨chars!"CameraProfileDigest", [], .str⟩,
     ⟨chars!"Clarity", [], .int 64⟩, ⟨chars!"ConvertToGrayscale", [], .text chars!"xmp.Bool"⟩,
     ⟨chars!"Defringe", [], .int 64⟩, ⟨chars!"FillLight", [], .int 64⟩, ⟨chars!"HighlightRecovery", [], .int 64⟩,
     ⟨chars!"HueAdjustmentAqua", [], .int 64⟩, ⟨chars!"HueAdjustmentBlue", [], .int 64⟩,
     ⟨chars!"HueAdjustmentGreen", [], .int 64⟩, ⟨chars!"HueAdjustmentMagenta", [], .int 64⟩,
     ⟨chars!"HueAdjustmentOrange", [], .int 64⟩, ⟨chars!"HueAdjustmentPurple", [], .int 64⟩,
     ⟨chars!"HueAdjustmentRed", [], .int 64⟩, ⟨chars!"HueAdjustmentYellow", [], .int 64⟩,
     ⟨chars!"IncrementalTemperature", [], .int 64⟩, ⟨chars!"IncrementalTint", [], .int 64⟩,
     ⟨chars!"LuminanceAdjustmentAqua", [], .int 64⟩, ⟨chars!"LuminanceAdjustmentBlue", [], .int 64⟩,
     ⟨chars!"LuminanceAdjustmentGreen", [], .int 64⟩, ⟨chars!"LuminanceAdjustmentMagenta", [], .int 64⟩,
     ⟨chars!"LuminanceAdjustmentOrange", [], .int 64⟩, ⟨chars!"LuminanceAdjustmentPurple", [], .int 64⟩,
     ⟨chars!"LuminanceAdjustmentRed", [], .int 64⟩, ⟨chars!"LuminanceAdjustmentYellow", [], .int 64⟩,
     ⟨chars!"ParametricDarks", [], .int 64⟩, ⟨chars!"ParametricHighlights", [], .int 64⟩,
     ⟨chars!"ParametricHighlightSplit", [], .int 64⟩, ⟨chars!"ParametricLights", [], .int 64⟩,
     ⟨chars!"ParametricMidtoneSplit", [], .int 64⟩, ⟨chars!"ParametricShadows", [], .int 64⟩,
     ⟨chars!"ParametricShadowSplit", [], .int 64⟩, ⟨chars!"SaturationAdjustmentAqua", [], .int 64⟩,
     ⟨chars!"SaturationAdjustmentBlue", [], .int 64⟩, ⟨chars!"SaturationAdjustmentGreen", [], .int 64⟩,
     ⟨chars!"SaturationAdjustmentMagenta", [], .int 64⟩, ⟨chars!"SaturationAdjustmentOrange", [], .int 64⟩,
     ⟨chars!"SaturationAdjustmentPurple", [], .int 64⟩, ⟨chars!"SaturationAdjustmentRed", [], .int 64⟩,
     ⟨chars!"SaturationAdjustmentYellow", [], .int 64⟩, ⟨chars!"SharpenDetail", [], .int 64⟩,
     ⟨chars!"SharpenEdgeMasking", [], .int 64⟩, ⟨chars!"SharpenRadius", [], .text chars!"float32"⟩,
     ⟨chars!"SplitToningBalance", [], .int 64⟩, ⟨chars!"SplitToningHighlightHue", [], .int 64⟩,
     ⟨chars!"SplitToningHighlightSaturation", [], .int 64⟩, ⟨chars!"SplitToningShadowHue", [], .int 64⟩,
     ⟨chars!"SplitToningShadowSaturation", [], .int 64⟩, ⟨chars!"Vibrance", [], .int 64⟩,
     ⟨chars!"GrayMixerRed", [], .int 64⟩, ⟨chars!"GrayMixerOrange", [], .int 64⟩, ⟨chars!"GrayMixerYellow", [], .int 64⟩,
     ⟨chars!"GrayMixerGreen", [], .int 64⟩, ⟨chars!"GrayMixerAqua", [], .int 64⟩, ⟨chars!"GrayMixerBlue", [], .int 64⟩,
     ⟨chars!"GrayMixerPurple", [], .int 64⟩, ⟨chars!"GrayMixerMagenta", [], .int 64⟩,
     ⟨chars!"RetouchInfo", [], .strs .unordered⟩, ⟨chars!"RedEyeInfo", [], .strs .unordered⟩,
     ⟨chars!"CropUnit", [], .int 64⟩, ⟨chars!"PostCropVignetteAmount", [], .int 64⟩,
     ⟨chars!"PostCropVignetteMidpoint", [], .int 64⟩, ⟨chars!"PostCropVignetteFeather", [], .int 64⟩,
     ⟨chars!"PostCropVignetteRoundness", [], .int 64⟩, ⟨chars!"PostCropVignetteStyle", [], .int 64⟩,
     ⟨chars!"ProcessVersion", [], .str⟩, ⟨chars!"LensProfileEnable", [], .int 64⟩, ⟨chars!"LensProfileSetup", [], .str⟩,
     ⟨chars!"LensProfileName", [], .str⟩, ⟨chars!"LensProfileFilename", [], .str⟩, ⟨chars!"LensProfileDigest", [], .str⟩,
     ⟨chars!"LensProfileDistortionScale", [], .int 64⟩, ⟨chars!"LensProfileChromaticAberrationScale", [], .int 64⟩,
     ⟨chars!"LensProfileVignettingScale", [], .int 64⟩, ⟨chars!"LensManualDistortionAmount", [], .int 64⟩,
     ⟨chars!"PerspectiveVertical", [], .int 64⟩, ⟨chars!"PerspectiveHorizontal", [], .int 64⟩,
     ⟨chars!"PerspectiveRotate", [], .text chars!"float32"⟩, ⟨chars!"PerspectiveScale", [], .int 64⟩,
     ⟨chars!"CropConstrainToWarp", [], .int 64⟩, ⟨chars!"LuminanceNoiseReductionDetail", [], .int 64⟩,
     ⟨chars!"LuminanceNoiseReductionContrast", [], .int 64⟩, ⟨chars!"ColorNoiseReductionDetail", [], .int 64⟩,
     ⟨chars!"GrainAmount", [], .int 64⟩, ⟨chars!"GrainSize", [], .int 64⟩, ⟨chars!"GrainFrequency", [], .int 64⟩,
     ⟨chars!"AutoLateralCA", [], .int 64⟩, ⟨chars!"Exposure2012", [], .text chars!"float32"⟩,
     ⟨chars!"Contrast2012", [], .int 64⟩, ⟨chars!"Highlights2012", [], .int 64⟩, ⟨chars!"Shadows2012", [], .int 64⟩,
     ⟨chars!"Whites2012", [], .int 64⟩, ⟨chars!"Blacks2012", [], .int 64⟩, ⟨chars!"Clarity2012", [], .int 64⟩,
     ⟨chars!"PostCropVignetteHighlightContrast", [], .int 64⟩, ⟨chars!"ToneCurveName2012", [], .str⟩,
     ⟨chars!"ToneCurveRed", [], .list chars!"crs.PointList"⟩, ⟨chars!"ToneCurveGreen", [], .list chars!"crs.PointList"⟩,
     ⟨chars!"ToneCurveBlue", [], .list chars!"crs.PointList"⟩, ⟨chars!"ToneCurvePV2012", [], .list chars!"crs.PointList"⟩,
     ⟨chars!"ToneCurvePV2012Red", [], .list chars!"crs.PointList"⟩,
     ⟨chars!"ToneCurvePV2012Green", [], .list chars!"crs.PointList"⟩,
     ⟨chars!"ToneCurvePV2012Blue", [], .list chars!"crs.PointList"⟩, ⟨chars!"ToneMapStrength", [], .int 64⟩,
     ⟨chars!"DefringePurpleAmount", [], .int 64⟩, ⟨chars!"DefringePurpleHueLo", [], .int 64⟩,
     ⟨chars!"DefringePurpleHueHi", [], .int 64⟩, ⟨chars!"DefringeGreenAmount", [], .int 64⟩,
     ⟨chars!"DefringeGreenHueLo", [], .int 64⟩, ⟨chars!"DefringeGreenHueHi", [], .int 64⟩,
     ⟨chars!"AutoWhiteVersion", [], .int 64⟩, ⟨chars!"ColorNoiseReductionSmoothness", [], .int 64⟩,
     ⟨chars!"PerspectiveAspect", [], .int 64⟩, ⟨chars!"PerspectiveUpright", [], .int 64⟩,
     ⟨chars!"UprightVersion", [], .int 64⟩, ⟨chars!"UprightCenterMode", [], .int 64⟩,
     ⟨chars!"UprightCenterNormX", [], .text chars!"float32"⟩, ⟨chars!"UprightCenterNormY", [], .text chars!"float32"⟩,
     ⟨chars!"UprightFocalMode", [], .int 64⟩, ⟨chars!"UprightFocalLength35mm", [], .text chars!"float32"⟩,
     ⟨chars!"UprightPreview", [], .text chars!"xmp.Bool"⟩, ⟨chars!"UprightTransformCount", [], .int 64⟩,
     ⟨chars!"UprightDependentDigest", [], .str⟩, ⟨chars!"UprightTransform_0", [], .str⟩,
     ⟨chars!"UprightTransform_1", [], .str⟩, ⟨chars!"UprightTransform_2", [], .str⟩, ⟨chars!"UprightTransform_3", [], .str⟩,
     ⟨chars!"UprightTransform_4", [], .str⟩, ⟨chars!"LensProfileMatchKeyExifMake", [], .str⟩,
     ⟨chars!"LensProfileMatchKeyExifModel", [], .str⟩, ⟨chars!"LensProfileMatchKeyCameraModelName", [], .str⟩,
     ⟨chars!"LensProfileMatchKeyLensInfo", [], .str⟩, ⟨chars!"LensProfileMatchKeyLensID", [], .str⟩,
     ⟨chars!"LensProfileMatchKeyLensName", [], .str⟩, ⟨chars!"LensProfileMatchKeyIsRaw", [], .text chars!"xmp.Bool"⟩,
     ⟨chars!"LensProfileMatchKeySensorFormatFactor", [], .text chars!"float32"⟩,
     ⟨chars!"DefaultAutoTone", [], .text chars!"xmp.Bool"⟩, ⟨chars!"DefaultAutoGray", [], .text chars!"xmp.Bool"⟩,
     ⟨chars!"DefaultsSpecificToSerial", [], .text chars!"xmp.Bool"⟩,
     ⟨chars!"DefaultsSpecificToISO", [], .text chars!"xmp.Bool"⟩, ⟨chars!"DNGIgnoreSidecars", [], .text chars!"xmp.Bool"⟩,
     ⟨chars!"NegativeCachePath", [], .str⟩, ⟨chars!"NegativeCacheMaximumSize", [], .text chars!"float32"⟩,
     ⟨chars!"NegativeCacheLargePreviewSize", [], .int 64⟩, ⟨chars!"JPEGHandling", [], .str⟩,
     ⟨chars!"TIFFHandling", [], .str⟩, ⟨chars!"GradientBasedCorrections", [], .list chars!"crs.CorrectionList"⟩,
     ⟨chars!"CircularGradientBasedCorrections", [], .list chars!"crs.CorrectionList"⟩,
     ⟨chars!"PaintBasedCorrections", [], .list chars!"crs.CorrectionList"⟩,
     ⟨chars!"RetouchAreas", [], .list chars!"crs.RetouchAreaList"⟩]

/-- models/dc/model.go:54-70, methods models/dc/model.go:92-110. -/
def m_dc : TagModel where
  typ := chars!"dc.DublinCore"
  ns := chars!"dc"
  names := .asIs
  rows :=
    [⟨chars!"Contributor", [], .strs .unordered⟩, ⟨chars!"Coverage", [], .str⟩, ⟨chars!"Creator", [], .strs .ordered⟩,
     ⟨chars!"Date", [], .list chars!"xmp.DateList"⟩, ⟨chars!"Description", [], .alt⟩, ⟨chars!"Format", [], .str⟩,
     ⟨chars!"Identifier", [], .str⟩, ⟨chars!"Language", [], .list chars!"dc.LocaleArray"⟩,
     ⟨chars!"Publisher", [], .strs .unordered⟩, ⟨chars!"Relation", [], .strs .unordered⟩, ⟨chars!"Rights", [], .alt⟩,
     ⟨chars!"Source", [], .str⟩, ⟨chars!"Subject", [], .strs .unordered⟩, ⟨chars!"Title", [], .alt⟩,
     ⟨chars!"Type", [], .strs .unordered⟩]

/-- models/digikam/model.go:38-47, methods models/digikam/model.go:69-87. -/
def m_digikam : TagModel where
  typ := chars!"digikam.Digikam"
  ns := chars!"digiKam"
  names := .asIs
  rows :=
    [⟨chars!"TagsList", [], .strs .ordered⟩, ⟨chars!"CaptionsAutorNames", [], .alt⟩,
     ⟨chars!"CaptionsDateTimeStamps", [], .alt⟩, ⟨chars!"ImageHistory", [], .str⟩, ⟨chars!"ImageUniqueID", [], .str⟩,
     ⟨chars!"LensCorrectionSettings", [], .str⟩, ⟨chars!"ColorLabel", [], .str⟩, ⟨chars!"PickLabel", [], .str⟩]

/-- models/dji/dji.go:91-104, methods models/dji/dji.go:71-89. -/
def m_dji : TagModel where
  typ := chars!"dji.DJI"
  ns := chars!"drone-dji"
  names := .asIs
  rows :=
    [⟨chars!"AbsoluteAltitude", [(chars!"dji", chars!"AbsoluteAltitude"), (chars!"qt", chars!"-")], .text chars!"float32"⟩,
     ⟨chars!"FlightPitchDegree", [(chars!"dji", chars!"FlightPitchDegree"), (chars!"qt", chars!"\u00c2\u00a9fpt")], .text chars!"float32"⟩,
     ⟨chars!"FlightRollDegree", [(chars!"dji", chars!"FlightRollDegree"), (chars!"qt", chars!"\u00c2\u00a9frl")], .text chars!"float32"⟩,
     ⟨chars!"FlightYawDegree", [(chars!"dji", chars!"FlightYawDegree"), (chars!"qt", chars!"\u00c2\u00a9fyw")], .text chars!"float32"⟩,
     ⟨chars!"GimbalPitchDegree", [(chars!"dji", chars!"GimbalPitchDegree"), (chars!"qt", chars!"\u00c2\u00a9gpt")], .text chars!"float32"⟩,
     ⟨chars!"GimbalRollDegree", [(chars!"dji", chars!"GimbalRollDegree"), (chars!"qt", chars!"\u00c2\u00a9grl")], .text chars!"float32"⟩,
     ⟨chars!"GimbalYawDegree", [(chars!"dji", chars!"GimbalYawDegree"), (chars!"qt", chars!"\u00c2\u00a9gyw")], .text chars!"float32"⟩,
     ⟨chars!"RelativeAltitude", [(chars!"dji", chars!"RelativeAltitude"), (chars!"qt", chars!"-")], .text chars!"float32"⟩,
     ⟨chars!"SpeedX", [(chars!"dji", chars!"SpeedX"), (chars!"qt", chars!"\u00c2\u00a9xsp")], .text chars!"float32"⟩,
     ⟨chars!"SpeedY", [(chars!"dji", chars!"SpeedY"), (chars!"qt", chars!"\u00c2\u00a9ysp")], .text chars!"float32"⟩,
     ⟨chars!"SpeedZ", [(chars!"dji", chars!"SpeedZ"), (chars!"qt", chars!"\u00c2\u00a9zsp")], .text chars!"float32"⟩,
     ⟨chars!"Model", [(chars!"dji", chars!"Model"), (chars!"qt", chars!"\u00c2\u00a9mdl")], .str⟩]

/-- models/exif/model.go:81-252, methods models/exif/model.go:378-415. -/
def m_exif_ExifInfo : TagModel where
  typ := chars!"exif.ExifInfo"
  ns := chars!"exif"
  names := .exif
  rows :=
    [⟨chars!"Artist", [(chars!"exif", chars!"0x013b")], .str⟩,
     ⟨chars!"ArtistXMP", [(chars!"exif", chars!"-")], .strs .ordered⟩,
     ⟨chars!"BitsPerSample", [(chars!"exif", chars!"0x0102")], .list chars!"xmp.IntList"⟩,
     ⟨chars!"Compression", [(chars!"exif", chars!"0x0103")], .int 64⟩,
     ⟨chars!"Copyright", [(chars!"exif", chars!"0x8298")], .str⟩, ⟨chars!"CopyrightXMP", [(chars!"exif", chars!"-")], .alt⟩,
     ⟨chars!"DateTime", [(chars!"exif", chars!"0x0132")], .text chars!"exif.Date"⟩,
     ⟨chars!"DateTimeXMP", [(chars!"exif", chars!"-")], .text chars!"xmp.Date"⟩,
     ⟨chars!"ImageDescription", [(chars!"exif", chars!"0x010e")], .str⟩,
     ⟨chars!"ImageDescriptionXMP", [(chars!"exif", chars!"-")], .alt⟩,
     ⟨chars!"ImageLength", [(chars!"exif", chars!"0x0101")], .int 64⟩,
     ⟨chars!"ImageWidth", [(chars!"exif", chars!"0x0100")], .int 64⟩, ⟨chars!"Make", [(chars!"exif", chars!"0x010f")], .str⟩,
     ⟨chars!"Model", [(chars!"exif", chars!"0x0110")], .str⟩,
     ⟨chars!"Orientation", [(chars!"exif", chars!"0x0112")], .int 64⟩,
     ⟨chars!"PhotometricInterpretation", [(chars!"exif", chars!"0x0106")], .int 64⟩,
     ⟨chars!"PlanarConfiguration", [(chars!"exif", chars!"0x011c")], .int 64⟩,
     ⟨chars!"PrimaryChromaticities", [(chars!"exif", chars!"0x013f")], .list chars!"xmp.RationalArray"⟩,
     ⟨chars!"ReferenceBlackWhite", [(chars!"exif", chars!"0x0214")], .list chars!"xmp.RationalArray"⟩,
     ⟨chars!"ResolutionUnit", [(chars!"exif", chars!"0x0128")], .int 64⟩,
     ⟨chars!"SamplesPerPixel", [(chars!"exif", chars!"0x0115")], .int 64⟩,
     ⟨chars!"Software", [(chars!"exif", chars!"0x0131")], .str⟩, ⟨chars!"SoftwareXMP", [(chars!"exif", chars!"-")], .str⟩,
     ⟨chars!"TransferFunction", [(chars!"exif", chars!"0x012d")], .list chars!"xmp.IntList"⟩,
     ⟨chars!"WhitePoint", [(chars!"exif", chars!"0x013e")], .list chars!"xmp.RationalArray"⟩,
     ⟨chars!"XResolution", [(chars!"exif", chars!"0x011a")], .text chars!"xmp.Rational"⟩,
     ⟨chars!"YCbCrCoefficients", [(chars!"exif", chars!"0x0211")], .list chars!"xmp.RationalArray"⟩,
     ⟨chars!"YCbCrPositioning", [(chars!"exif", chars!"0x0213")], .int 64⟩,
     ⟨chars!"YCbCrSubSampling", [(chars!"exif", chars!"0x0212")], .list chars!"tiff.YCbCrSubSampling"⟩,
     ⟨chars!"YResolution", [(chars!"exif", chars!"0x011b")], .text chars!"xmp.Rational"⟩,
     ⟨chars!"ExifVersion", [(chars!"exif", chars!"0x9000")], .str⟩,
     ⟨chars!"FlashpixVersion", [(chars!"exif", chars!"0xa000")], .str⟩,
     ⟨chars!"ColorSpace", [(chars!"exif", chars!"0xa001")], .int 64⟩,
     ⟨chars!"ComponentsConfiguration", [(chars!"exif", chars!"0x9101")], .list chars!"exif.ComponentArray"⟩,
     ⟨chars!"CompressedBitsPerPixel", [(chars!"exif", chars!"0x9102")], .text chars!"xmp.Rational"⟩,
     ⟨chars!"PixelXDimension", [(chars!"exif", chars!"0xa002")], .int 64⟩,
     ⟨chars!"PixelYDimension", [(chars!"exif", chars!"0xa003")], .int 64⟩,
     ⟨chars!"MakerNote", [(chars!"exif", chars!"0x927c")], .text chars!"exif.ByteArray"⟩,
     ⟨chars!"UserComment", [(chars!"exif", chars!"0x9286")], .strs .unordered⟩,
     ⟨chars!"RelatedSoundFile", [(chars!"exif", chars!"0xa004")], .str⟩,
     ⟨chars!"DateTimeOriginal", [(chars!"exif", chars!"0x9003")], .text chars!"exif.Date"⟩,
     ⟨chars!"DateTimeOriginalXMP", [(chars!"exif", chars!"-")], .text chars!"xmp.Date"⟩,
     ⟨chars!"DateTimeDigitized", [(chars!"exif", chars!"0x9004")], .text chars!"exif.Date"⟩,
     ⟨chars!"DateTimeDigitizedXMP", [(chars!"exif", chars!"-")], .text chars!"xmp.Date"⟩,
     ⟨chars!"SubSecTime", [(chars!"exif", chars!"0x9290")], .str⟩,
     ⟨chars!"SubSecTimeOriginal", [(chars!"exif", chars!"0x9291")], .str⟩,
     ⟨chars!"SubSecTimeDigitized", [(chars!"exif", chars!"0x9292")], .str⟩,
     ⟨chars!"ExposureTime", [(chars!"exif", chars!"0x829a")], .text chars!"xmp.Rational"⟩,
     ⟨chars!"FNumber", [(chars!"exif", chars!"0x829d")], .text chars!"xmp.Rational"⟩,
     ⟨chars!"ExposureProgram", [(chars!"exif", chars!"0x8822")], .int 64⟩,
     ⟨chars!"SpectralSensitivity", [(chars!"exif", chars!"0x8824")], .str⟩,
     ⟨chars!"OECF", [(chars!"exif", chars!"0x8828")], .ptr (.setOnly chars!"exif.OECF")⟩,
     ⟨chars!"ShutterSpeedValue", [(chars!"exif", chars!"0x9201")], .text chars!"xmp.Rational"⟩,
     ⟨chars!"ApertureValue", [(chars!"exif", chars!"0x9202")], .text chars!"xmp.Rational"⟩,
     ⟨chars!"BrightnessValue", [(chars!"exif", chars!"0x9203")], .text chars!"xmp.Rational"⟩,
     ⟨chars!"ExposureBiasValue", [(chars!"exif", chars!"0x9204")], .text chars!"xmp.Rational"⟩,
     ⟨chars!"MaxApertureValue", [(chars!"exif", chars!"0x9205")], .text chars!"xmp.Rational"⟩,
     ⟨chars!"SubjectDistance", [(chars!"exif", chars!"0x9206")], .text chars!"xmp.Rational"⟩,
     ⟨chars!"MeteringMode", [(chars!"exif", chars!"0x9207")], .int 64⟩,
     ⟨chars!"LightSource", [(chars!"exif", chars!"0x9208")], .int 64⟩,
     ⟨chars!"Flash", [(chars!"exif", chars!"0x9209")], .setOnly chars!"exif.Flash"⟩,
     ⟨chars!"FocalLength", [(chars!"exif", chars!"0x920a")], .text chars!"xmp.Rational"⟩,
     ⟨chars!"SubjectArea", [(chars!"exif", chars!"0x9214")], .list chars!"xmp.IntList"⟩,
     ⟨chars!"FlashEnergy", [(chars!"exif", chars!"0xa20b")], .text chars!"xmp.Rational"⟩,
     ⟨chars!"SpatialFrequencyResponse", [(chars!"exif", chars!"0xa20c")], .ptr (.setOnly chars!"exif.OECF")⟩,
     ⟨chars!"FocalPlaneXResolution", [(chars!"exif", chars!"0xa20e")], .text chars!"xmp.Rational"⟩,
     ⟨chars!"FocalPlaneYResolution", [(chars!"exif", chars!"0xa20f")], .text chars!"xmp.Rational"⟩,
     ⟨chars!"FocalPlaneResolutionUnit", [(chars!"exif", chars!"0xa210")], .int 64⟩,
     ⟨chars!"SubjectLocation", [(chars!"exif", chars!"0xa214")], .list chars!"xmp.IntList"⟩,
     ⟨chars!"ExposureIndex", [(chars!"exif", chars!"0xa215")], .text chars!"xmp.Rational"⟩,
     ⟨chars!"SensingMethod", [(chars!"exif", chars!"0xa217")], .int 64⟩,
     ⟨chars!"FileSource", [(chars!"exif", chars!"0xa300")], .int 64⟩,
     ⟨chars!"SceneType", [(chars!"exif", chars!"0xa301")], .int 64⟩,
     ⟨chars!"CFAPattern", [(chars!"exif", chars!"0xa302")], .ptr (.setOnly chars!"exif.CFAPattern")⟩,
     ⟨chars!"CustomRendered", [(chars!"exif", chars!"0xa401")], .int 64⟩,
     ⟨chars!"ExposureMode", [(chars!"exif", chars!"0xa402")], .int 64⟩,
     ⟨chars!"WhiteBalance", [(chars!"exif", chars!"0xa403")], .int 64⟩,
     ⟨chars!"DigitalZoomRatio", [(chars!"exif", chars!"0xa404")], .text chars!"xmp.Rational"⟩,
     ⟨chars!"FocalLengthIn35mmFilm", [(chars!"exif", chars!"0xa405")], .int 64⟩,
     ⟨chars!"SceneCaptureType", [(chars!"exif", chars!"0xa406")], .int 64⟩,
     ⟨chars!"GainControl", [(chars!"exif", chars!"0xa407")], .int 64⟩,
     ⟨chars!"Contrast", [(chars!"exif", chars!"0xa408")], .int 64⟩,
     ⟨chars!"Saturation", [(chars!"exif", chars!"0xa409")], .int 64⟩,
     ⟨chars!"Sharpness", [(chars!"exif", chars!"0xa40a")], .int 64⟩,
     ⟨chars!"DeviceSettingDescription", [(chars!"exif", chars!"0xa40b")], .setOnly chars!"exif.DeviceSettings"⟩,
     ⟨chars!"SubjectDistanceRange", [(chars!"exif", chars!"0xa40c")], .int 64⟩,
     ⟨chars!"ImageUniqueID", [(chars!"exif", chars!"0xa420")], .str⟩,
     ⟨chars!"GPSVersionID", [(chars!"exif", chars!"0x0000")], .str⟩,
     ⟨chars!"GPSLatitudeRef", [(chars!"exif", chars!"0x0001")], .str⟩,
     ⟨chars!"GPSLatitude", [(chars!"exif", chars!"0x0002")], .solid chars!"exif.GPSCoord" true⟩,
     ⟨chars!"GPSLatitudeCoord", [(chars!"exif", chars!"-")], .str⟩,
     ⟨chars!"GPSLongitudeRef", [(chars!"exif", chars!"0x0003")], .str⟩,
     ⟨chars!"GPSLongitude", [(chars!"exif", chars!"0x0004")], .solid chars!"exif.GPSCoord" true⟩,
     ⟨chars!"GPSLongitudeCoord", [(chars!"exif", chars!"-")], .str⟩,
     ⟨chars!"GPSAltitudeRef", [(chars!"exif", chars!"0x0005")], .str⟩,
     ⟨chars!"GPSAltitude", [(chars!"exif", chars!"0x0006")], .text chars!"xmp.Rational"⟩,
     ⟨chars!"GPSTimeStamp", [(chars!"exif", chars!"0x0007")], .list chars!"xmp.RationalArray"⟩,
     ⟨chars!"GPSDateStamp", [(chars!"exif", chars!"0x001d")], .text chars!"exif.Date"⟩,
     ⟨chars!"GPSTimeStampXMP", [(chars!"exif", chars!"-")], .text chars!"xmp.Date"⟩,
     ⟨chars!"GPSSatellites", [(chars!"exif", chars!"0x0008")], .str⟩,
     ⟨chars!"GPSStatus", [(chars!"exif", chars!"0x0009")], .str⟩,
     ⟨chars!"GPSMeasureMode", [(chars!"exif", chars!"0x000a")], .str⟩,
     ⟨chars!"GPSDOP", [(chars!"exif", chars!"0x000b")], .text chars!"xmp.Rational"⟩,
     ⟨chars!"GPSSpeedRef", [(chars!"exif", chars!"0x000c")], .str⟩,
     ⟨chars!"GPSSpeed", [(chars!"exif", chars!"0x000d")], .text chars!"xmp.Rational"⟩,
     ⟨chars!"GPSTrackRef", [(chars!"exif", chars!"0x000e")], .str⟩,
     ⟨chars!"GPSTrack", [(chars!"exif", chars!"0x000f")], .text chars!"xmp.Rational"⟩,
     ⟨chars!"GPSImgDirectionRef", [(chars!"exif", chars!"0x0010")], .str⟩,
     ⟨chars!"GPSImgDirection", [(chars!"exif", chars!"0x0011")], .text chars!"xmp.Rational"⟩,
     ⟨chars!"GPSMapDatum", [(chars!"exif", chars!"0x0012")], .str⟩,
     ⟨chars!"GPSDestLatitudeRef", [(chars!"exif", chars!"0x0013")], .str⟩,
     ⟨chars!"GPSDestLatitude", [(chars!"exif", chars!"0x0014")], .solid chars!"exif.GPSCoord" true⟩,
     ⟨chars!"GPSDestLatitudeCoord", [(chars!"exif", chars!"-")], .str⟩,
     ⟨chars!"GPSDestLongitudeRef", [(chars!"exif", chars!"0x0015")], .str⟩,
     ⟨chars!"GPSDestLongitude", [(chars!"exif", chars!"0x0016")], .solid chars!"exif.GPSCoord" true⟩,
     ⟨chars!"GPSDestLongitudeCoord", [(chars!"exif", chars!"-")], .str⟩,
     ⟨chars!"GPSDestBearingRef", [(chars!"exif", chars!"0x0017")], .str⟩,
     ⟨chars!"GPSDestBearing", [(chars!"exif", chars!"0x0018")], .text chars!"xmp.Rational"⟩,
     ⟨chars!"GPSDestDistanceRef", [(chars!"exif", chars!"0x0019")], .str⟩,
     ⟨chars!"GPSDestDistance", [(chars!"exif", chars!"0x001a")], .text chars!"xmp.Rational"⟩,
     ⟨chars!"GPSProcessingMethod", [(chars!"exif", chars!"0x001b")], .str⟩,
     ⟨chars!"GPSAreaInformation", [(chars!"exif", chars!"0x001c")], .str⟩,
     ⟨chars!"GPSDifferential", [(chars!"exif", chars!"0x001e")], .int 64⟩,
     ⟨chars!"GPSHPositioningError", [(chars!"exif", chars!"0x001f")], .text chars!"xmp.Rational"⟩,
     ⟨chars!"NativeDigest", [(chars!"exif", chars!"-")], .str⟩,
     ⟨chars!"ISOSpeedRatings", [(chars!"exif", chars!"-")], .list chars!"xmp.IntList"⟩,
     ⟨chars!"ExRelatedImageFileFormat", [(chars!"exif", chars!"0x1000")], .str⟩,
     ⟨chars!"ExRelatedImageWidth", [(chars!"exif", chars!"0x1001")], .int 64⟩,
     ⟨chars!"ExRelatedImageLength", [(chars!"exif", chars!"0x1002")], .int 64⟩,
     ⟨chars!"ExPhotographicSensitivity", [(chars!"exif", chars!"0x8827")], .int 64⟩,
     ⟨chars!"ExSensitivityType", [(chars!"exif", chars!"0x8830")], .int 64⟩,
     ⟨chars!"ExStandardOutputSensitivity", [(chars!"exif", chars!"0x8831")], .int 64⟩,
     ⟨chars!"ExRecommendedExposureIndex", [(chars!"exif", chars!"0x8832")], .int 64⟩,
     ⟨chars!"ExISOSpeed", [(chars!"exif", chars!"0x8833")], .int 64⟩,
     ⟨chars!"ExISOSpeedLatitudeyyy", [(chars!"exif", chars!"0x8834")], .int 64⟩,
     ⟨chars!"ExISOSpeedLatitudezzz", [(chars!"exif", chars!"0x8835")], .int 64⟩,
     ⟨chars!"ExCameraOwnerName", [(chars!"exif", chars!"0xa430")], .str⟩,
     ⟨chars!"ExBodySerialNumber", [(chars!"exif", chars!"0xa431")], .str⟩,
     ⟨chars!"ExLensSpecification", [(chars!"exif", chars!"0xa432")], .list chars!"xmp.RationalArray"⟩,
     ⟨chars!"ExLensMake", [(chars!"exif", chars!"0xa433")], .str⟩,
     ⟨chars!"ExLensModel", [(chars!"exif", chars!"0xa434")], .str⟩,
     ⟨chars!"ExLensSerialNumber", [(chars!"exif", chars!"0xa435")], .str⟩,
     ⟨chars!"ExGamma", [(chars!"exif", chars!"0xa500")], .text chars!"xmp.Rational"⟩,
     ⟨chars!"AuxApproximateFocusDistance", [], .text chars!"xmp.Rational"⟩,
     ⟨chars!"AuxDistortionCorrectionAlreadyApplied", [], .text chars!"xmp.Bool"⟩, ⟨chars!"AuxSerialNumber", [], .str⟩,
     ⟨chars!"AuxLensInfo", [], .str⟩, ⟨chars!"AuxLensDistortInfo", [], .str⟩, ⟨chars!"AuxLens", [], .str⟩,
     ⟨chars!"AuxLensID", [], .str⟩, ⟨chars!"AuxImageNumber", [], .int 64⟩,
     ⟨chars!"AuxIsMergedHDR", [], .text chars!"xmp.Bool"⟩, ⟨chars!"AuxIsMergedPanorama", [], .text chars!"xmp.Bool"⟩,
     ⟨chars!"AuxLateralChromaticAberrationCorrectionAlreadyApplied", [], .text chars!"xmp.Bool"⟩,
     ⟨chars!"AuxVignetteCorrectionAlreadyApplied", [], .text chars!"xmp.Bool"⟩,
     ⟨chars!"AuxFlashCompensation", [], .text chars!"xmp.Rational"⟩, ⟨chars!"AuxFirmware", [], .str⟩,
     ⟨chars!"AuxOwnerName", [], .str⟩]

/-- models/exif/model.go:417-437, methods models/exif/model.go:459-477. -/
def m_exif_ExifEXInfo : TagModel where
  typ := chars!"exif.ExifEXInfo"
  ns := chars!"exifEX"
  names := .asIs
  rows :=
    [⟨chars!"InteroperabilityIndex", [(chars!"exif", chars!"0x0001")], .str⟩,
     ⟨chars!"InteroperabilityVersion", [(chars!"exif", chars!"0x0002")], .str⟩,
     ⟨chars!"RelatedImageFileFormat", [(chars!"exif", chars!"0x1000")], .str⟩,
     ⟨chars!"RelatedImageWidth", [(chars!"exif", chars!"0x1001")], .int 64⟩,
     ⟨chars!"RelatedImageLength", [(chars!"exif", chars!"0x1002")], .int 64⟩,
     ⟨chars!"PhotographicSensitivity", [(chars!"exif", chars!"0x8827")], .int 64⟩,
     ⟨chars!"SensitivityType", [(chars!"exif", chars!"0x8830")], .int 64⟩,
     ⟨chars!"StandardOutputSensitivity", [(chars!"exif", chars!"0x8831")], .int 64⟩,
     ⟨chars!"RecommendedExposureIndex", [(chars!"exif", chars!"0x8832")], .int 64⟩,
     ⟨chars!"ISOSpeed", [(chars!"exif", chars!"0x8833")], .int 64⟩,
     ⟨chars!"ISOSpeedLatitudeyyy", [(chars!"exif", chars!"0x8834")], .int 64⟩,
     ⟨chars!"ISOSpeedLatitudezzz", [(chars!"exif", chars!"0x8835")], .int 64⟩,
     ⟨chars!"CameraOwnerName", [(chars!"exif", chars!"0xa430")], .str⟩,
     ⟨chars!"BodySerialNumber", [(chars!"exif", chars!"0xa431")], .str⟩,
     ⟨chars!"LensSpecification", [(chars!"exif", chars!"0xa432")], .list chars!"xmp.RationalArray"⟩,
     ⟨chars!"LensMake", [(chars!"exif", chars!"0xa433")], .str⟩, ⟨chars!"LensModel", [(chars!"exif", chars!"0xa434")], .str⟩,
     ⟨chars!"LensSerialNumber", [(chars!"exif", chars!"0xa435")], .str⟩,
     ⟨chars!"Gamma", [(chars!"exif", chars!"0xa500")], .text chars!"xmp.Rational"⟩]

/-- models/exif/model.go:487-504, methods models/exif/model.go:526-544. -/
def m_exif_ExifAuxInfo : TagModel where
  typ := chars!"exif.ExifAuxInfo"
  ns := chars!"aux"
  names := .asIs
  rows :=
    [⟨chars!"ApproximateFocusDistance", [], .text chars!"xmp.Rational"⟩,
     ⟨chars!"DistortionCorrectionAlreadyApplied", [], .text chars!"xmp.Bool"⟩, ⟨chars!"SerialNumber", [], .str⟩,
     ⟨chars!"LensInfo", [], .str⟩, ⟨chars!"LensDistortInfo", [], .str⟩, ⟨chars!"Lens", [], .str⟩, ⟨chars!"LensID", [], .str⟩,
     ⟨chars!"LensSerialNumber", [], .str⟩, ⟨chars!"ImageNumber", [], .int 64⟩,
     ⟨chars!"IsMergedHDR", [], .text chars!"xmp.Bool"⟩, ⟨chars!"IsMergedPanorama", [], .text chars!"xmp.Bool"⟩,
     ⟨chars!"LateralChromaticAberrationCorrectionAlreadyApplied", [], .text chars!"xmp.Bool"⟩,
     ⟨chars!"VignetteCorrectionAlreadyApplied", [], .text chars!"xmp.Bool"⟩,
     ⟨chars!"FlashCompensation", [], .text chars!"xmp.Rational"⟩, ⟨chars!"Firmware", [], .str⟩,
     ⟨chars!"OwnerName", [], .str⟩]

/-- models/id3/model.go:226-333, methods models/id3/model.go:435-495. -/
def m_id3 : TagModel where
  typ := chars!"id3.ID3"
  ns := chars!"id3"
  names := .id3
  rows :=
    [⟨chars!"AudioEncryption", [(chars!"id3", chars!"AENC")], .ptr (.stub chars!"id3.AudioEncryption")⟩,
     ⟨chars!"AttachedPicture", [(chars!"id3", chars!"APIC")], .stub chars!"id3.AttachedPictureArray"⟩,
     ⟨chars!"AudioSeekPointIndex", [(chars!"id3", chars!"ASPI,v2.4+")], .ptr (.stub chars!"id3.AudioSeekIndex")⟩,
     ⟨chars!"Comments", [(chars!"id3", chars!"COMM")], .str⟩,
     ⟨chars!"Commercial", [(chars!"id3", chars!"COMR")], .ptr (.stub chars!"id3.Commercial")⟩,
     ⟨chars!"Encryption", [(chars!"id3", chars!"ENCR")], .stub chars!"id3.EncryptionMethodArray"⟩,
     ⟨chars!"Equalization_v23", [(chars!"id3", chars!"EQUA,v2.3-")], .str⟩,
     ⟨chars!"Equalization", [(chars!"id3", chars!"EQU2,v2.4+")], .stub chars!"id3.EqualizationList"⟩,
     ⟨chars!"EventTimingCodes", [(chars!"id3", chars!"ETCO")], .stub chars!"id3.MarkerList"⟩,
     ⟨chars!"GeneralEncapsulatedObject", [(chars!"id3", chars!"GEOB")], .stub chars!"id3.EncapsulatedObjectArray"⟩,
     ⟨chars!"GroupIdentifier", [(chars!"id3", chars!"GRID")], .stub chars!"id3.GroupArray"⟩,
     ⟨chars!"InvolvedPeopleList_v23", [(chars!"id3", chars!"IPLS,v2.3-")], .str⟩,
     ⟨chars!"Link", [(chars!"id3", chars!"LINK")], .stub chars!"id3.LinkArray"⟩,
     ⟨chars!"MusicCDIdentifier", [(chars!"id3", chars!"MCDI")], .bytes⟩,
     ⟨chars!"MPEGLocationLookupTable", [(chars!"id3", chars!"MLLT")], .bytes⟩,
     ⟨chars!"Ownership", [(chars!"id3", chars!"OWNE")], .ptr (.stub chars!"id3.Owner")⟩,
     ⟨chars!"Private", [(chars!"id3", chars!"PRIV")], .stub chars!"id3.PrivateDataArray"⟩,
     ⟨chars!"PlayCounter", [(chars!"id3", chars!"PCNT")], .int 64⟩,
     ⟨chars!"Popularimeter", [(chars!"id3", chars!"POPM")], .stub chars!"id3.PopularimeterArray"⟩,
     ⟨chars!"PositionSynchronization", [(chars!"id3", chars!"POSS")], .ptr (.mute chars!"id3.PositionSync")⟩,
     ⟨chars!"RecommendedBufferSize", [(chars!"id3", chars!"RBUF")], .ptr (.stub chars!"id3.BufferSize")⟩,
     ⟨chars!"RelativeVolumeAdjustment_v23", [(chars!"id3", chars!"RVAD,v2.3-")], .str⟩,
     ⟨chars!"RelativeVolumeAdjustment", [(chars!"id3", chars!"RVA2,v2.4+")], .stub chars!"id3.VolumeAdjustArray"⟩,
     ⟨chars!"Reverb", [(chars!"id3", chars!"RVRB")], .ptr (.stub chars!"id3.Reverb")⟩,
     ⟨chars!"Seek", [(chars!"id3", chars!"SEEK,v2.4+")], .int 64⟩,
     ⟨chars!"Signature", [(chars!"id3", chars!"SIGN,v2.4+")], .stub chars!"id3.SignatureArray"⟩,
     ⟨chars!"SynchronizedLyrics", [(chars!"id3", chars!"SYLT")], .stub chars!"id3.TimedLyricsArray"⟩,
     ⟨chars!"SynchronizedTempoCodes", [(chars!"id3", chars!"SYTC")], .bytes⟩,
     ⟨chars!"AlbumTitle", [(chars!"id3", chars!"TALB")], .str⟩,
     ⟨chars!"BeatsPerMinute", [(chars!"id3", chars!"TBPM")], .int 64⟩,
     ⟨chars!"Composer", [(chars!"id3", chars!"TCOM")], .str⟩,
     ⟨chars!"ContentType", [(chars!"id3", chars!"TCON")], .text chars!"id3.Genre"⟩,
     ⟨chars!"Copyright", [(chars!"id3", chars!"TCOP")], .str⟩,
     ⟨chars!"Date_v23", [(chars!"id3", chars!"TDAT,v2.3-")], .text chars!"id3.Date23"⟩,
     ⟨chars!"EncodingTime", [(chars!"id3", chars!"TDEN,v2.4+")], .text chars!"xmp.Date"⟩,
     ⟨chars!"PlaylistDelay", [(chars!"id3", chars!"TDLY")], .int 64⟩,
     ⟨chars!"OriginalReleaseTime", [(chars!"id3", chars!"TDOR,v2.4+")], .text chars!"xmp.Date"⟩,
     ⟨chars!"RecordingTime", [(chars!"id3", chars!"TDRC,v2.4+")], .text chars!"xmp.Date"⟩,
     ⟨chars!"ReleaseTime", [(chars!"id3", chars!"TDRL,v2.4+")], .text chars!"xmp.Date"⟩,
     ⟨chars!"TaggingTime", [(chars!"id3", chars!"TDTG,v2.4+")], .text chars!"xmp.Date"⟩,
     ⟨chars!"EncodedBy", [(chars!"id3", chars!"TENC")], .str⟩, ⟨chars!"Lyricist", [(chars!"id3", chars!"TEXT")], .str⟩,
     ⟨chars!"FileType", [(chars!"id3", chars!"TFLT")], .str⟩,
     ⟨chars!"Time_v23", [(chars!"id3", chars!"TIME,v2.3-")], .text chars!"id3.Time23"⟩,
     ⟨chars!"InvolvedPeopleList", [(chars!"id3", chars!"TIPL,v2.4+")], .str⟩,
     ⟨chars!"ContentGroupDescription", [(chars!"id3", chars!"TIT1")], .str⟩,
     ⟨chars!"TitleDescription", [(chars!"id3", chars!"TIT2")], .str⟩,
     ⟨chars!"SubTitle", [(chars!"id3", chars!"TIT3")], .str⟩, ⟨chars!"InitialKey", [(chars!"id3", chars!"TKEY")], .str⟩,
     ⟨chars!"Language", [(chars!"id3", chars!"TLAN")], .str⟩, ⟨chars!"Length", [(chars!"id3", chars!"TLEN")], .str⟩,
     ⟨chars!"MusicianCreditsList", [(chars!"id3", chars!"TMCL,v2.4+")], .str⟩,
     ⟨chars!"MediaType", [(chars!"id3", chars!"TMED")], .str⟩, ⟨chars!"Mood", [(chars!"id3", chars!"TMOO,v2.4+")], .str⟩,
     ⟨chars!"OriginalAlbumTitle", [(chars!"id3", chars!"TOAL")], .str⟩,
     ⟨chars!"OriginalFilename", [(chars!"id3", chars!"TOFN")], .str⟩,
     ⟨chars!"OriginalLyricist", [(chars!"id3", chars!"TOLY")], .str⟩,
     ⟨chars!"OriginalArtist", [(chars!"id3", chars!"TOPE")], .str⟩,
     ⟨chars!"OriginalReleaseYear_v23", [(chars!"id3", chars!"TORY,v2.3-")], .int 64⟩,
     ⟨chars!"FileOwner", [(chars!"id3", chars!"TOWN")], .str⟩, ⟨chars!"LeadPerformer", [(chars!"id3", chars!"TPE1")], .str⟩,
     ⟨chars!"Band", [(chars!"id3", chars!"TPE2")], .str⟩, ⟨chars!"Conductor", [(chars!"id3", chars!"TPE3")], .str⟩,
     ⟨chars!"ModifiedBy", [(chars!"id3", chars!"TPE4")], .str⟩,
     ⟨chars!"PartOfASet", [(chars!"id3", chars!"TPOS")], .text chars!"id3.TrackNum"⟩,
     ⟨chars!"ProducedNotice", [(chars!"id3", chars!"TPRO,v2.4+")], .str⟩,
     ⟨chars!"Publisher", [(chars!"id3", chars!"TPUB")], .str⟩,
     ⟨chars!"TrackNumber", [(chars!"id3", chars!"TRCK")], .text chars!"id3.TrackNum"⟩,
     ⟨chars!"RecordingDates", [(chars!"id3", chars!"TRDA")], .str⟩,
     ⟨chars!"InternetRadioStationName", [(chars!"id3", chars!"TRSN")], .str⟩,
     ⟨chars!"InternetRadioStationOwner", [(chars!"id3", chars!"TRSO")], .str⟩,
     ⟨chars!"Size_v23", [(chars!"id3", chars!"TSIZ,v2.3-")], .str⟩,
     ⟨chars!"AlbumSortOrder", [(chars!"id3", chars!"TSOA,v2.4+")], .str⟩,
     ⟨chars!"PerformerSortOrder", [(chars!"id3", chars!"TSOP,v2.4+")], .str⟩,
     ⟨chars!"TitleSortOrder", [(chars!"id3", chars!"TSOT,v2.4+")], .str⟩,
     ⟨chars!"InternationalStandardRecordingCode", [(chars!"id3", chars!"TSRC")], .str⟩,
     ⟨chars!"EncodedWith", [(chars!"id3", chars!"TSSE")], .str⟩,
     ⟨chars!"SetSubtitle", [(chars!"id3", chars!"TSST,v2.4+")], .str⟩,
     ⟨chars!"Year_v23", [(chars!"id3", chars!"TYER,v2.3-")], .int 64⟩,
     ⟨chars!"UserText", [(chars!"id3", chars!"TXXX")], .str⟩,
     ⟨chars!"UniqueFileIdentifier", [(chars!"id3", chars!"UFID")], .str⟩,
     ⟨chars!"TermsOfUse", [(chars!"id3", chars!"USER")], .strs .ordered⟩,
     ⟨chars!"UnsynchronizedLyrics", [(chars!"id3", chars!"USLT")], .strs .ordered⟩,
     ⟨chars!"CommercialInformation", [(chars!"id3", chars!"WCOM")], .str⟩,
     ⟨chars!"CopyrightInformation", [(chars!"id3", chars!"WCOP")], .str⟩,
     ⟨chars!"OfficialAudioFileWebpage", [(chars!"id3", chars!"WOAF")], .str⟩,
     ⟨chars!"OfficialArtistWebpage", [(chars!"id3", chars!"WOAR")], .str⟩,
     ⟨chars!"OfficialAudioSourceWebpage", [(chars!"id3", chars!"WOAS")], .str⟩,
     ⟨chars!"OfficialInternetRadioStationHomepage", [(chars!"id3", chars!"WORS")], .str⟩,
     ⟨chars!"Payment", [(chars!"id3", chars!"WPAY")], .str⟩,
     ⟨chars!"OfficialPublisherWebpage", [(chars!"id3", chars!"WPUB")], .str⟩,
     ⟨chars!"UserURL", [(chars!"id3", chars!"WXXX")], .str⟩,
     ⟨chars!"AccessibilityText", [(chars!"id3", chars!"ATXT")], .str⟩,
     ⟨chars!"Chapters", [(chars!"id3", chars!"CHAP")], .stub chars!"id3.ChapterList"⟩,
     ⟨chars!"TableOfContents", [(chars!"id3", chars!"CTOC")], .stub chars!"id3.TocEntryList"⟩,
     ⟨chars!"AlbumArtistSortOrder", [(chars!"id3", chars!"TSO2")], .str⟩,
     ⟨chars!"ComposerSortOrder", [(chars!"id3", chars!"TSOC")], .str⟩,
     ⟨chars!"IsCompilation", [(chars!"id3", chars!"TCMP")], .int 64⟩,
     ⟨chars!"ITunesU", [(chars!"id3", chars!"ITNU")], .int 64⟩, ⟨chars!"IsPodcast", [(chars!"id3", chars!"PCST")], .int 64⟩,
     ⟨chars!"PodcastDescription", [(chars!"id3", chars!"TDES")], .str⟩,
     ⟨chars!"PodcastID", [(chars!"id3", chars!"TGID")], .str⟩, ⟨chars!"PodcastURL", [(chars!"id3", chars!"WFED")], .str⟩,
     ⟨chars!"PodcastKeywords", [(chars!"id3", chars!"TKWD")], .str⟩,
     ⟨chars!"PodcastCategory", [(chars!"id3", chars!"TCAT")], .str⟩,
     ⟨chars!"Extension", [(chars!"id3", chars!",any")], .list chars!"xmp.TagList"⟩]

/-- models/itunes/model.go:107-201, methods models/itunes/model.go:74-101. -/
def m_itunes : TagModel where
  typ := chars!"itunes.ITunesMetadata"
  ns := chars!"iTunes"
  names := .asIs
  rows :=
    [⟨chars!"AccountKind", [(chars!"iTunes", chars!"akID")], .int 64⟩,
     ⟨chars!"Acknowledgement", [(chars!"iTunes", chars!"\u00c2\u00a9cak")], .str⟩,
     ⟨chars!"Album", [(chars!"iTunes", chars!"\u00c2\u00a9alb")], .str⟩,
     ⟨chars!"AlbumArtist", [(chars!"iTunes", chars!"aART")], .str⟩,
     ⟨chars!"AppleID", [(chars!"iTunes", chars!"apID")], .str⟩,
     ⟨chars!"Arranger", [(chars!"iTunes", chars!"\u00c2\u00a9arg")], .str⟩,
     ⟨chars!"ArtDirector", [(chars!"iTunes", chars!"\u00c2\u00a9ard")], .str⟩,
     ⟨chars!"Artist", [(chars!"iTunes", chars!"\u00c2\u00a9ART")], .str⟩,
     ⟨chars!"ArtistID", [(chars!"iTunes", chars!"atID")], .str⟩,
     ⟨chars!"Author", [(chars!"iTunes", chars!"\u00c2\u00a9aut")], .str⟩,
     ⟨chars!"BeatsPerMin", [(chars!"iTunes", chars!"tmpo")], .int 64⟩,
     ⟨chars!"Comment", [(chars!"iTunes", chars!"\u00c2\u00a9cmt")], .str⟩,
     ⟨chars!"Composer", [(chars!"iTunes", chars!"\u00c2\u00a9wrt")], .str⟩,
     ⟨chars!"Conductor", [(chars!"iTunes", chars!"\u00c2\u00a9con")], .str⟩,
     ⟨chars!"IsExplicit", [(chars!"iTunes", chars!"rtng")], .int 64⟩,
     ⟨chars!"Copyright", [(chars!"iTunes", chars!"cprt")], .str⟩, ⟨chars!"CoverArt", [(chars!"iTunes", chars!"covr")], .str⟩,
     ⟨chars!"CoverUrl", [(chars!"iTunes", chars!"cvru")], .str⟩,
     ⟨chars!"Credits", [(chars!"iTunes", chars!"\u00c2\u00a9src")], .str⟩,
     ⟨chars!"Description", [(chars!"iTunes", chars!"\u00c2\u00a9des")], .str⟩,
     ⟨chars!"Director", [(chars!"iTunes", chars!"\u00c2\u00a9dir")], .str⟩,
     ⟨chars!"DiscNumber", [(chars!"iTunes", chars!"disk")], .text chars!"xmp.Rational"⟩,
     ⟨chars!"Duration", [(chars!"iTunes", chars!"dcfD")], .int 64⟩,
     ⟨chars!"EncodedBy", [(chars!"iTunes", chars!"\u00c2\u00a9enc")], .str⟩,
     ⟨chars!"EncodingTool", [(chars!"iTunes", chars!"\u00c2\u00a9too")], .str⟩,
     ⟨chars!"EQ", [(chars!"iTunes", chars!"\u00c2\u00a9equ")], .str⟩,
     ⟨chars!"ExecProducer", [(chars!"iTunes", chars!"\u00c2\u00a9xpd")], .str⟩,
     ⟨chars!"GenreCode", [(chars!"iTunes", chars!"gnre")], .uint 8⟩,
     ⟨chars!"GenreID", [(chars!"iTunes", chars!"geID")], .int 64⟩,
     ⟨chars!"GenreName", [(chars!"iTunes", chars!"\u00c2\u00a9gen")], .str⟩,
     ⟨chars!"Grouping", [(chars!"iTunes", chars!"grup")], .str⟩, ⟨chars!"IconUrl", [(chars!"iTunes", chars!"icnu")], .str⟩,
     ⟨chars!"InfoUrl", [(chars!"iTunes", chars!"infu")], .str⟩,
     ⟨chars!"IsDiscCompilation", [(chars!"iTunes", chars!"cpil")], .int 64⟩,
     ⟨chars!"IsGaplessPlayback", [(chars!"iTunes", chars!"pgap")], .int 64⟩,
     ⟨chars!"IsHDVideo", [(chars!"iTunes", chars!"hdvd")], .int 64⟩,
     ⟨chars!"IsiTunesU", [(chars!"iTunes", chars!"itnu")], .str⟩,
     ⟨chars!"IsPodcast", [(chars!"iTunes", chars!"pcst")], .int 64⟩,
     ⟨chars!"Keywords", [(chars!"iTunes", chars!"keyw")], .str⟩,
     ⟨chars!"LinerNotes", [(chars!"iTunes", chars!"\u00c2\u00a9lnt")], .str⟩,
     ⟨chars!"Lyrics", [(chars!"iTunes", chars!"\u00c2\u00a9lyr")], .str⟩,
     ⟨chars!"LyricsUrl", [(chars!"iTunes", chars!"lrcu")], .str⟩,
     ⟨chars!"MediaType", [(chars!"iTunes", chars!"stik")], .int 64⟩,
     ⟨chars!"Narrator", [(chars!"iTunes", chars!"\u00c2\u00a9nrt")], .str⟩,
     ⟨chars!"OnlineExtras", [(chars!"iTunes", chars!"\u00c2\u00a9url")], .str⟩,
     ⟨chars!"OriginalArtist", [(chars!"iTunes", chars!"\u00c2\u00a9ope")], .str⟩,
     ⟨chars!"Performer", [(chars!"iTunes", chars!"\u00c2\u00a9prf")], .str⟩,
     ⟨chars!"PhonogramRights", [(chars!"iTunes", chars!"\u00c2\u00a9phg")], .str⟩,
     ⟨chars!"PlaylistID", [(chars!"iTunes", chars!"plID")], .str⟩,
     ⟨chars!"PodcastCategory", [(chars!"iTunes", chars!"catg")], .str⟩,
     ⟨chars!"PodcastGuid", [(chars!"iTunes", chars!"egid")], .str⟩,
     ⟨chars!"PodcastUrl", [(chars!"iTunes", chars!"purl")], .str⟩,
     ⟨chars!"Producer", [(chars!"iTunes", chars!"\u00c2\u00a9prd")], .str⟩,
     ⟨chars!"ProductID", [(chars!"iTunes", chars!"prID")], .str⟩,
     ⟨chars!"Publisher", [(chars!"iTunes", chars!"\u00c2\u00a9pub")], .str⟩,
     ⟨chars!"PurchaseDate", [(chars!"iTunes", chars!"purd")], .text chars!"xmp.Date"⟩,
     ⟨chars!"RatingPercent", [(chars!"iTunes", chars!"rate")], .str⟩,
     ⟨chars!"RecordCompany", [(chars!"iTunes", chars!"\u00c2\u00a9mak")], .str⟩,
     ⟨chars!"ReleaseDate", [(chars!"iTunes", chars!"\u00c2\u00a9day")], .text chars!"xmp.Date"⟩,
     ⟨chars!"ShowEpisodeName", [(chars!"iTunes", chars!"tves")], .str⟩,
     ⟨chars!"ShowEpisodeNum", [(chars!"iTunes", chars!"tven")], .int 64⟩,
     ⟨chars!"ShowName", [(chars!"iTunes", chars!"tvsh")], .str⟩,
     ⟨chars!"ShowSeasonNum", [(chars!"iTunes", chars!"tvsn")], .int 64⟩,
     ⟨chars!"Soloist", [(chars!"iTunes", chars!"\u00c2\u00a9sol")], .str⟩,
     ⟨chars!"SongID", [(chars!"iTunes", chars!"cnID")], .str⟩, ⟨chars!"SortAlbum", [(chars!"iTunes", chars!"soal")], .str⟩,
     ⟨chars!"SortAlbumArtist", [(chars!"iTunes", chars!"soaa")], .str⟩,
     ⟨chars!"SortArtist", [(chars!"iTunes", chars!"soar")], .str⟩,
     ⟨chars!"SortComposer", [(chars!"iTunes", chars!"soco")], .str⟩,
     ⟨chars!"SortName", [(chars!"iTunes", chars!"sonm")], .str⟩, ⟨chars!"SortShow", [(chars!"iTunes", chars!"sosn")], .str⟩,
     ⟨chars!"SoundEngineer", [(chars!"iTunes", chars!"\u00c2\u00a9sne")], .str⟩,
     ⟨chars!"StoreFrontID", [(chars!"iTunes", chars!"sfID")], .str⟩,
     ⟨chars!"Synopsis", [(chars!"iTunes", chars!"ldes")], .str⟩,
     ⟨chars!"Thanks", [(chars!"iTunes", chars!"\u00c2\u00a9thx")], .str⟩,
     ⟨chars!"Title", [(chars!"iTunes", chars!"\u00c2\u00a9nam")], .str⟩,
     ⟨chars!"ToolInfo", [(chars!"iTunes", chars!"tool")], .str⟩,
     ⟨chars!"TrackNumber", [(chars!"iTunes", chars!"trkn")], .int 64⟩,
     ⟨chars!"TrackSubTitle", [(chars!"iTunes", chars!"\u00c2\u00a9st3")], .str⟩,
     ⟨chars!"TVNetworkName", [(chars!"iTunes", chars!"tvnn")], .str⟩, ⟨chars!"XID", [(chars!"iTunes", chars!"xid ")], .str⟩,
     ⟨chars!"ContentRating", [(chars!"iTunes", chars!"iTunEXTC")], .ptr (.text chars!"itunes.ContentRating")⟩,
     ⟨chars!"SoundCheck", [(chars!"iTunes", chars!"iTunNORM")], .bytes⟩,
     ⟨chars!"SMPB", [(chars!"iTunes", chars!"iTunSMPB")], .ptr (.setOnly chars!"itunes.SMPB")⟩,
     ⟨chars!"IsGaplessPlayback2", [(chars!"iTunes", chars!"iTunPGAP")], .int 64⟩,
     ⟨chars!"MovieInfo", [(chars!"iTunes", chars!"iTunMOVI")], .ptr (.mute chars!"itunes.MovieInfo")⟩,
     ⟨chars!"CDDBToc", [(chars!"iTunes", chars!"iTunes_CDDB_1")], .str⟩,
     ⟨chars!"CDDBTrackNumber", [(chars!"iTunes", chars!"iTunes_CDDB_TrackNumber")], .str⟩,
     ⟨chars!"CDDBMediaID", [(chars!"iTunes", chars!"iTunes_CDDB_IDs")], .str⟩,
     ⟨chars!"EncodingParams", [(chars!"iTunes", chars!"Encoding Params")], .bytes⟩,
     ⟨chars!"Extension", [(chars!"iTunes", chars!",any")], .list chars!"xmp.TagList"⟩]

/-- models/ixml/model.go:71-95, methods models/ixml/model.go:131-149. -/
def m_ixml : TagModel where
  typ := chars!"ixml.IXML"
  ns := chars!"iXML"
  names := .asIs
  rows :=
    [⟨chars!"XMLName", [(chars!"xml", chars!"BWFXML")], .solid chars!"xml.Name" false⟩,
     ⟨chars!"Version", [(chars!"xml", chars!"IXML_VERSION")], .str⟩,
     ⟨chars!"Project", [(chars!"xml", chars!"PROJECT,omitempty")], .str⟩,
     ⟨chars!"SceneName", [(chars!"xml", chars!"SCENE,omitempty")], .str⟩,
     ⟨chars!"SoundRoll", [(chars!"xml", chars!"TAPE,omitempty")], .str⟩,
     ⟨chars!"Take", [(chars!"xml", chars!"TAKE,omitempty")], .int 64⟩,
     ⟨chars!"TakeType", [(chars!"xml", chars!"TAKE_TYPE,omitempty")], .text chars!"ixml.TakeTypeList"⟩,
     ⟨chars!"IsNotGood", [(chars!"xml", chars!"NO_GOOD,omitempty")], .text chars!"ixml.Bool"⟩,
     ⟨chars!"IsFalseStart", [(chars!"xml", chars!"FALSE_START,omitempty")], .text chars!"ixml.Bool"⟩,
     ⟨chars!"IsWildTrack", [(chars!"xml", chars!"WILD_TRACK,omitempty")], .text chars!"ixml.Bool"⟩,
     ⟨chars!"PreRecordSamplecount", [(chars!"xml", chars!"PRE_RECORD_SAMPLECOUNT,omitempty")], .int 64⟩,
     ⟨chars!"IsCircled", [(chars!"xml", chars!"CIRCLED,omitempty")], .text chars!"ixml.Bool"⟩,
     ⟨chars!"FileUID", [(chars!"xml", chars!"FILE_UID,omitempty")], .str⟩,
     ⟨chars!"UserBits", [(chars!"xml", chars!"UBITS,omitempty")], .str⟩,
     ⟨chars!"Note", [(chars!"xml", chars!"NOTE,omitempty")], .str⟩,
     ⟨chars!"SyncPoints", [(chars!"xml", chars!"SYNC_POINT_LIST,omitempty")], .list chars!"ixml.SyncPointList"⟩,
     ⟨chars!"Speed", [(chars!"xml", chars!"SPEED,omitempty")], .ptr (.mute chars!"ixml.Speed")⟩,
     ⟨chars!"History", [(chars!"xml", chars!"HISTORY,omitempty")], .ptr (.mute chars!"ixml.History")⟩,
     ⟨chars!"FileSet", [(chars!"xml", chars!"FILE_SET,omitempty")], .ptr (.mute chars!"ixml.FileSet")⟩,
     ⟨chars!"TrackList", [(chars!"xml", chars!"TRACK_LIST,omitempty")], .list chars!"ixml.TrackList"⟩,
     ⟨chars!"UserData", [(chars!"xml", chars!"USER,omitempty")], .ptr (.mute chars!"ixml.UserData")⟩,
     ⟨chars!"Location", [(chars!"xml", chars!"LOCATION,omitempty")], .ptr (.mute chars!"ixml.Location")⟩,
     ⟨chars!"Extension", [(chars!"xml", chars!",any")], .list chars!"xmp.NamedExtensionArray"⟩]

/-- models/mp4/model.go:37-55, methods models/mp4/model.go:77-103. -/
def m_mp4 : TagModel where
  typ := chars!"mp4.MP4Info"
  ns := chars!"mp4"
  names := .asIs
  rows :=
    [⟨chars!"AlbumAndTrack", [(chars!"mp4", chars!"albm")], .str⟩, ⟨chars!"Author", [(chars!"mp4", chars!"auth")], .str⟩,
     ⟨chars!"Classification", [(chars!"mp4", chars!"clsf")], .str⟩,
     ⟨chars!"CollectionName", [(chars!"mp4", chars!"coll")], .str⟩, ⟨chars!"Copyright", [(chars!"mp4", chars!"cprt")], .str⟩,
     ⟨chars!"CreationDate", [(chars!"mp4", chars!"date")], .text chars!"xmp.Date"⟩,
     ⟨chars!"Description", [(chars!"mp4", chars!"dscp")], .str⟩, ⟨chars!"GenreName", [(chars!"mp4", chars!"gnre")], .str⟩,
     ⟨chars!"KeywordList", [(chars!"mp4", chars!"kywd")], .strs .ordered⟩,
     ⟨chars!"Location", [(chars!"mp4", chars!"loci")], .ptr (.stub chars!"qt.Location")⟩,
     ⟨chars!"MediaRatingText", [(chars!"mp4", chars!"rtng")], .str⟩,
     ⟨chars!"Performer", [(chars!"mp4", chars!"perf")], .str⟩,
     ⟨chars!"RecordingYear", [(chars!"mp4", chars!"yrrc")], .int 64⟩,
     ⟨chars!"TaggedCharacteristic", [(chars!"mp4", chars!"tagc")], .str⟩,
     ⟨chars!"Thumbnail", [(chars!"mp4", chars!"thmb")], .bytes⟩, ⟨chars!"Title", [(chars!"mp4", chars!"titl")], .str⟩,
     ⟨chars!"UserRating", [(chars!"mp4", chars!"urat")], .int 64⟩]

/-- models/pdf/model.go:54-67, methods models/pdf/model.go:133-151. -/
def m_pdf : TagModel where
  typ := chars!"pdf.PDFInfo"
  ns := chars!"pdf"
  names := .asIs
  rows :=
    [⟨chars!"Title", [], .alt⟩, ⟨chars!"Author", [], .strs .ordered⟩, ⟨chars!"Subject", [], .alt⟩,
     ⟨chars!"Keywords", [], .str⟩, ⟨chars!"Creator", [], .str⟩, ⟨chars!"Producer", [], .str⟩, ⟨chars!"PDFVersion", [], .str⟩,
     ⟨chars!"CreationDate", [], .text chars!"xmp.Date"⟩, ⟨chars!"ModifyDate", [], .text chars!"xmp.Date"⟩,
     ⟨chars!"Trapped", [], .text chars!"xmp.Bool"⟩, ⟨chars!"Copyright", [], .str⟩,
     ⟨chars!"Marked", [], .text chars!"xmp.Bool"⟩]

/-- models/pm/model.go:98-117, methods models/pm/model.go:78-96. -/
def m_pm : TagModel where
  typ := chars!"pm.Photomechanic"
  ns := chars!"photomechanic"
  names := .asIs
  rows :=
    [⟨chars!"EditStatus", [], .str⟩, ⟨chars!"ColorClass", [], .int 64⟩, ⟨chars!"CountryCode", [], .str⟩,
     ⟨chars!"TimeCreated", [], .text chars!"pm.Time"⟩, ⟨chars!"Prefs", [], .text chars!"pm.Preferences"⟩,
     ⟨chars!"Tagged", [], .text chars!"xmp.Bool"⟩, ⟨chars!"Version", [], .str⟩, ⟨chars!"ColorClassEval", [], .int 64⟩,
     ⟨chars!"ColorClassApply", [], .text chars!"xmp.Bool"⟩, ⟨chars!"RatingEval", [], .int 64⟩,
     ⟨chars!"RatingApply", [], .text chars!"xmp.Bool"⟩, ⟨chars!"TagEval", [], .int 64⟩,
     ⟨chars!"TagApply", [], .text chars!"xmp.Bool"⟩, ⟨chars!"CaptionMergeStyle", [], .int 64⟩,
     ⟨chars!"ApplyAPCustom", [], .int 64⟩, ⟨chars!"MergeAPCustom", [], .int 64⟩, ⟨chars!"ApplyDateType", [], .int 64⟩,
     ⟨chars!"FieldsToApply", [], .strs .unordered⟩]

/-- models/ps/model.go:54-79, methods models/ps/model.go:101-119. -/
def m_ps : TagModel where
  typ := chars!"ps.PhotoshopInfo"
  ns := chars!"photoshop"
  names := .asIs
  rows :=
    [⟨chars!"AuthorsPosition", [], .str⟩, ⟨chars!"CaptionWriter", [], .str⟩, ⟨chars!"Category", [], .str⟩,
     ⟨chars!"City", [], .str⟩, ⟨chars!"ColorMode", [], .int 64⟩, ⟨chars!"Country", [], .str⟩, ⟨chars!"Credit", [], .str⟩,
     ⟨chars!"DateCreated", [], .text chars!"xmp.Date"⟩, ⟨chars!"DocumentAncestors", [], .list chars!"ps.AnchestorArray"⟩,
     ⟨chars!"Headline", [], .str⟩, ⟨chars!"History", [], .str⟩, ⟨chars!"ICCProfile", [], .str⟩,
     ⟨chars!"Instructions", [], .str⟩, ⟨chars!"Layer", [], .ptr (.mute chars!"ps.Layer")⟩,
     ⟨chars!"SidecarForExtension", [], .str⟩, ⟨chars!"Source", [], .str⟩, ⟨chars!"State", [], .str⟩,
     ⟨chars!"SupplementalCategories", [], .strs .unordered⟩, ⟨chars!"TextLayers", [], .list chars!"ps.LayerList"⟩,
     ⟨chars!"TransmissionReference", [], .str⟩, ⟨chars!"Urgency", [], .int 64⟩, ⟨chars!"EmbeddedXMPDigest", [], .str⟩,
     ⟨chars!"LegacyIPTCDigest", [], .str⟩]

/-- models/qt/qt_userdata.go:28-166, methods models/qt/qt_userdata.go:188-206. -/
def m_qt_QtUserdata : TagModel where
  typ := chars!"qt.QtUserdata"
  ns := chars!"qt"
  names := .asIs
  rows :=
    [⟨chars!"Album", [(chars!"qt", chars!"\u00c2\u00a9alb")], .str⟩,
     ⟨chars!"Arranger", [(chars!"qt", chars!"\u00c2\u00a9arg")], .str⟩,
     ⟨chars!"Artist", [(chars!"qt", chars!"\u00c2\u00a9ART")], .str⟩,
     ⟨chars!"Author", [(chars!"qt", chars!"\u00c2\u00a9aut")], .str⟩,
     ⟨chars!"Chapter", [(chars!"qt", chars!"\u00c2\u00a9chp")], .str⟩,
     ⟨chars!"Comment", [(chars!"qt", chars!"\u00c2\u00a9cmt")], .str⟩,
     ⟨chars!"Composer", [(chars!"qt", chars!"\u00c2\u00a9com")], .str⟩,
     ⟨chars!"Copyright", [(chars!"qt", chars!"\u00c2\u00a9cpy")], .str⟩,
     ⟨chars!"ReleaseDate", [(chars!"qt", chars!"\u00c2\u00a9day")], .text chars!"xmp.Date"⟩,
     ⟨chars!"Description", [(chars!"qt", chars!"\u00c2\u00a9des")], .str⟩,
     ⟨chars!"Director", [(chars!"qt", chars!"\u00c2\u00a9dir")], .str⟩,
     ⟨chars!"Disclaimer", [(chars!"qt", chars!"\u00c2\u00a9dis")], .str⟩,
     ⟨chars!"EncodedBy", [(chars!"qt", chars!"\u00c2\u00a9enc")], .str⟩,
     ⟨chars!"Title", [(chars!"qt", chars!"\u00c2\u00a9nam")], .str⟩,
     ⟨chars!"GenreName", [(chars!"qt", chars!"\u00c2\u00a9gen")], .str⟩,
     ⟨chars!"HostComputer", [(chars!"qt", chars!"\u00c2\u00a9hst")], .str⟩,
     ⟨chars!"Information", [(chars!"qt", chars!"\u00c2\u00a9inf")], .str⟩,
     ⟨chars!"Keywords", [(chars!"qt", chars!"\u00c2\u00a9key")], .str⟩,
     ⟨chars!"FileCreator", [(chars!"qt", chars!"\u00c2\u00a9mak")], .str⟩,
     ⟨chars!"FileCreatorModel", [(chars!"qt", chars!"\u00c2\u00a9mod")], .str⟩,
     ⟨chars!"OriginalArtist", [(chars!"qt", chars!"\u00c2\u00a9ope")], .str⟩,
     ⟨chars!"FileFormat", [(chars!"qt", chars!"\u00c2\u00a9fmt")], .str⟩,
     ⟨chars!"Credits", [(chars!"qt", chars!"\u00c2\u00a9src")], .str⟩,
     ⟨chars!"Performer", [(chars!"qt", chars!"\u00c2\u00a9prf")], .str⟩,
     ⟨chars!"Producer", [(chars!"qt", chars!"\u00c2\u00a9prd")], .str⟩,
     ⟨chars!"Publisher", [(chars!"qt", chars!"\u00c2\u00a9pub")], .str⟩,
     ⟨chars!"Product", [(chars!"qt", chars!"\u00c2\u00a9PRD")], .str⟩,
     ⟨chars!"FileCreatorSoftware", [(chars!"qt", chars!"\u00c2\u00a9swr")], .str⟩,
     ⟨chars!"PlaybackRequirements", [(chars!"qt", chars!"\u00c2\u00a9req")], .str⟩,
     ⟨chars!"Track", [(chars!"qt", chars!"\u00c2\u00a9trk")], .str⟩,
     ⟨chars!"CopyWarning", [(chars!"qt", chars!"\u00c2\u00a9wrn")], .str⟩,
     ⟨chars!"Writer", [(chars!"qt", chars!"\u00c2\u00a9wrt")], .str⟩,
     ⟨chars!"Url", [(chars!"qt", chars!"\u00c2\u00a9url")], .str⟩,
     ⟨chars!"LocationGPS", [(chars!"qt", chars!"\u00c2\u00a9xyz")], .ptr (.stub chars!"qt.Location")⟩,
     ⟨chars!"TrackName", [(chars!"qt", chars!"tnam")], .str⟩,
     ⟨chars!"PhonogramRights", [(chars!"qt", chars!"\u00c2\u00a9phg")], .str⟩,
     ⟨chars!"DisplayName", [(chars!"qt", chars!"name")], .str⟩,
     ⟨chars!"TaggedCharacteristic", [(chars!"qt", chars!"tagc")], .str⟩,
     ⟨chars!"AudioBookReleaseDate", [(chars!"qt", chars!"rldt")], .text chars!"xmp.Date"⟩,
     ⟨chars!"ClipFileName", [(chars!"qt", chars!"clfn")], .str⟩, ⟨chars!"ClipID", [(chars!"qt", chars!"clid")], .str⟩,
     ⟨chars!"ContentDistributorID", [(chars!"qt", chars!"cdis")], .str⟩,
     ⟨chars!"ContentID", [(chars!"qt", chars!"ccid")], .str⟩,
     ⟨chars!"CreationDate", [(chars!"qt", chars!"date")], .text chars!"xmp.Date"⟩,
     ⟨chars!"Grouping", [(chars!"qt", chars!"\u00c2\u00a9grp")], .str⟩, ⟨chars!"GUID", [(chars!"qt", chars!"GUID")], .str⟩,
     ⟨chars!"ISRCCode", [(chars!"qt", chars!"\u00c2\u00a9isr")], .str⟩,
     ⟨chars!"AlbumArtist", [(chars!"qt", chars!"albr")], .str⟩, ⟨chars!"Angle", [(chars!"qt", chars!"angl")], .str⟩,
     ⟨chars!"ArrangerKeywords", [(chars!"qt", chars!"\u00c2\u00a9ark")], .str⟩,
     ⟨chars!"AudibleTags", [(chars!"qt", chars!"tags")], .str⟩, ⟨chars!"CameraID", [(chars!"qt", chars!"cmid")], .str⟩,
     ⟨chars!"CameraManufacturer", [(chars!"qt", chars!"manu")], .str⟩,
     ⟨chars!"CameraModel", [(chars!"qt", chars!"modl")], .str⟩, ⟨chars!"CameraName", [(chars!"qt", chars!"cmnm")], .str⟩,
     ⟨chars!"CameraSerialNumber", [(chars!"qt", chars!"slno")], .str⟩,
     ⟨chars!"ChapterList", [(chars!"qt", chars!"chpl")], .str⟩,
     ⟨chars!"ComposerKeywords", [(chars!"qt", chars!"\u00c2\u00a9cok")], .str⟩,
     ⟨chars!"Edit1", [(chars!"qt", chars!"\u00c2\u00a9ed1")], .str⟩,
     ⟨chars!"Edit2", [(chars!"qt", chars!"\u00c2\u00a9ed2")], .str⟩,
     ⟨chars!"Edit3", [(chars!"qt", chars!"\u00c2\u00a9ed3")], .str⟩,
     ⟨chars!"Edit4", [(chars!"qt", chars!"\u00c2\u00a9ed4")], .str⟩,
     ⟨chars!"Edit5", [(chars!"qt", chars!"\u00c2\u00a9ed5")], .str⟩,
     ⟨chars!"Edit6", [(chars!"qt", chars!"\u00c2\u00a9ed6")], .str⟩,
     ⟨chars!"Edit7", [(chars!"qt", chars!"\u00c2\u00a9ed7")], .str⟩,
     ⟨chars!"Edit8", [(chars!"qt", chars!"\u00c2\u00a9ed8")], .str⟩,
     ⟨chars!"Edit9", [(chars!"qt", chars!"\u00c2\u00a9ed9")], .str⟩,
     ⟨chars!"FileCreatorModel2", [(chars!"qt", chars!"\u00c2\u00a9mdl")], .str⟩,
     ⟨chars!"FileCreatorUrl", [(chars!"qt", chars!"\u00c2\u00a9mal")], .str⟩,
     ⟨chars!"Lyrics", [(chars!"qt", chars!"\u00c2\u00a9lyr")], .str⟩,
     ⟨chars!"LyricsUrl", [(chars!"qt", chars!"lrcu")], .str⟩, ⟨chars!"OriginalFormat", [(chars!"qt", chars!"orif")], .str⟩,
     ⟨chars!"OriginalSource", [(chars!"qt", chars!"oris")], .str⟩,
     ⟨chars!"PerformerKeywords", [(chars!"qt", chars!"\u00c2\u00a9prk")], .str⟩,
     ⟨chars!"PerformerUrl", [(chars!"qt", chars!"\u00c2\u00a9prl")], .str⟩,
     ⟨chars!"ProducerKeywords", [(chars!"qt", chars!"\u00c2\u00a9pdk")], .str⟩,
     ⟨chars!"ProductVersion", [(chars!"qt", chars!"VERS")], .str⟩,
     ⟨chars!"RecordLabelName", [(chars!"qt", chars!"\u00c2\u00a9lab")], .str⟩,
     ⟨chars!"RecordLabelUrl", [(chars!"qt", chars!"\u00c2\u00a9lal")], .str⟩,
     ⟨chars!"Reel", [(chars!"qt", chars!"reel")], .str⟩, ⟨chars!"Scene", [(chars!"qt", chars!"scen")], .str⟩,
     ⟨chars!"Shot", [(chars!"qt", chars!"shot")], .str⟩, ⟨chars!"SongWriter", [(chars!"qt", chars!"\u00c2\u00a9swf")], .str⟩,
     ⟨chars!"SongWriterKeywords", [(chars!"qt", chars!"\u00c2\u00a9swk")], .str⟩,
     ⟨chars!"Subtitle", [(chars!"qt", chars!"\u00c2\u00a9snm")], .str⟩,
     ⟨chars!"SubtitleKeywords", [(chars!"qt", chars!"\u00c2\u00a9snk")], .str⟩,
     ⟨chars!"Synopsis", [(chars!"qt", chars!"ldes")], .str⟩,
     ⟨chars!"TitleKeywords", [(chars!"qt", chars!"\u00c2\u00a9nak")], .str⟩,
     ⟨chars!"CoverArt", [(chars!"qt", chars!"covr")], .str⟩, ⟨chars!"CollectionUser", [(chars!"qt", chars!"coll")], .str⟩,
     ⟨chars!"UserRating", [(chars!"qt", chars!"rtng")], .str⟩,
     ⟨chars!"RecordingYear", [(chars!"qt", chars!"yrrc")], .int 64⟩,
     ⟨chars!"ApertureMode", [(chars!"qt", chars!"apmd")], .str⟩,
     ⟨chars!"FlightPitch", [(chars!"qt", chars!"\u00c2\u00a9fpt")], .text chars!"float64"⟩,
     ⟨chars!"FlightRoll", [(chars!"qt", chars!"\u00c2\u00a9frl")], .text chars!"float64"⟩,
     ⟨chars!"FlightSpeedX", [(chars!"qt", chars!"\u00c2\u00a9xsp")], .text chars!"float64"⟩,
     ⟨chars!"FlightSpeedY", [(chars!"qt", chars!"\u00c2\u00a9ysp")], .text chars!"float64"⟩,
     ⟨chars!"FlightSpeedZ", [(chars!"qt", chars!"\u00c2\u00a9zsp")], .text chars!"float64"⟩,
     ⟨chars!"FlightYaw", [(chars!"qt", chars!"\u00c2\u00a9fyw")], .text chars!"float64"⟩,
     ⟨chars!"GimbalPitch", [(chars!"qt", chars!"\u00c2\u00a9gpt")], .text chars!"float64"⟩,
     ⟨chars!"GimbalRoll", [(chars!"qt", chars!"\u00c2\u00a9grl")], .text chars!"float64"⟩,
     ⟨chars!"GimbalYaw", [(chars!"qt", chars!"\u00c2\u00a9gyw")], .text chars!"float64"⟩,
     ⟨chars!"HintInfo", [(chars!"qt", chars!"hnti")], .str⟩, ⟨chars!"HintTrackInfo", [(chars!"qt", chars!"hinf")], .str⟩,
     ⟨chars!"HintVersion", [(chars!"qt", chars!"hinv")], .str⟩, ⟨chars!"PrintToVideo", [(chars!"qt", chars!"ptv ")], .str⟩,
     ⟨chars!"TrackType", [(chars!"qt", chars!"kgtt")], .str⟩,
     ⟨chars!"WindowLocation", [(chars!"qt", chars!"WLOC")], .text chars!"qt.Point"⟩,
     ⟨chars!"GoogleHostHeader", [(chars!"qt", chars!"gshh")], .str⟩,
     ⟨chars!"GooglePingMessage", [(chars!"qt", chars!"gspm")], .str⟩,
     ⟨chars!"GooglePingURL", [(chars!"qt", chars!"gspu")], .str⟩,
     ⟨chars!"GoogleSourceData", [(chars!"qt", chars!"gssd")], .str⟩,
     ⟨chars!"GoogleStartTime", [(chars!"qt", chars!"gsst")], .str⟩,
     ⟨chars!"GoogleTrackDuration", [(chars!"qt", chars!"gstd")], .str⟩,
     ⟨chars!"CanonCodec", [(chars!"qt", chars!"CNCV")], .str⟩, ⟨chars!"CanonModel", [(chars!"qt", chars!"CNMN")], .str⟩,
     ⟨chars!"CanonFirmware", [(chars!"qt", chars!"CNFV")], .str⟩,
     ⟨chars!"CanonThumbnail", [(chars!"qt", chars!"CNDA")], .bytes⟩]

/-- models/qt/qt_metadata.go:41-111, methods models/qt/qt_metadata.go:166-184. -/
def m_qt_QtMetadata : TagModel where
  typ := chars!"qt.QtMetadata"
  ns := chars!"qt"
  names := .asIs
  rows :=
    [⟨chars!"Album", [(chars!"qt", chars!"com.apple.quicktime.album"), (chars!"qt", chars!"\u00c2\u00a9alb")], .str⟩,
     ⟨chars!"Arranger", [(chars!"qt", chars!"com.apple.quicktime.arranger"), (chars!"qt", chars!"\u00c2\u00a9arg")], .str⟩,
     ⟨chars!"Artist", [(chars!"qt", chars!"com.apple.quicktime.artist"), (chars!"qt", chars!"albr")], .str⟩,
     ⟨chars!"Artwork", [(chars!"qt", chars!"com.apple.quicktime.artwork"), (chars!"qt", chars!"covr")], .str⟩,
     ⟨chars!"Author", [(chars!"qt", chars!"com.apple.quicktime.author"), (chars!"qt", chars!"\u00c2\u00a9aut")], .str⟩,
     ⟨chars!"CameraFrameReadoutTime", [(chars!"qt", chars!"com.apple.quicktime.camera.framereadouttimeinmicroseconds"), (chars!"qt", chars!"-")], .str⟩,
     ⟨chars!"CameraIdentifier", [(chars!"qt", chars!"com.apple.quicktime.camera.identifier"), (chars!"qt", chars!"cmid")], .str⟩,
     ⟨chars!"CollectionUser", [(chars!"qt", chars!"com.apple.quicktime.collection.user"), (chars!"qt", chars!"coll")], .str⟩,
     ⟨chars!"Comment", [(chars!"qt", chars!"com.apple.quicktime.comment"), (chars!"qt", chars!"\u00c2\u00a9cmt")], .str⟩,
     ⟨chars!"Composer", [(chars!"qt", chars!"com.apple.quicktime.composer"), (chars!"qt", chars!"\u00c2\u00a9wrt")], .str⟩,
     ⟨chars!"ContentIdentifier", [(chars!"qt", chars!"com.apple.quicktime.content.identifier"), (chars!"qt", chars!"cnID")], .str⟩,
     ⟨chars!"Copyright", [(chars!"qt", chars!"com.apple.quicktime.copyright"), (chars!"qt", chars!"cprt")], .str⟩,
     ⟨chars!"CreationDate", [(chars!"qt", chars!"com.apple.quicktime.creationdate"), (chars!"qt", chars!"date")], .text chars!"xmp.Date"⟩,
     ⟨chars!"Credits", [(chars!"qt", chars!"com.apple.quicktime.credits"), (chars!"qt", chars!"\u00c2\u00a9src")], .str⟩,
     ⟨chars!"Description", [(chars!"qt", chars!"com.apple.quicktime.description"), (chars!"qt", chars!"\u00c2\u00a9des")], .str⟩,
     ⟨chars!"DirectionFacing", [(chars!"qt", chars!"com.apple.quicktime.direction.facing"), (chars!"qt", chars!"-")], .text chars!"float64"⟩,
     ⟨chars!"DirectionMotion", [(chars!"qt", chars!"com.apple.quicktime.direction.motion"), (chars!"qt", chars!"-")], .text chars!"float64"⟩,
     ⟨chars!"Director", [(chars!"qt", chars!"com.apple.quicktime.director"), (chars!"qt", chars!"\u00c2\u00a9dir")], .str⟩,
     ⟨chars!"DisplayName", [(chars!"qt", chars!"com.apple.quicktime.displayname"), (chars!"qt", chars!"name")], .str⟩,
     ⟨chars!"EncodedBy", [(chars!"qt", chars!"com.apple.quicktime.encodedby"), (chars!"qt", chars!"\u00c2\u00a9enc")], .str⟩,
     ⟨chars!"Genre", [(chars!"qt", chars!"com.apple.quicktime.genre"), (chars!"qt", chars!"\u00c2\u00a9gen")], .str⟩,
     ⟨chars!"Information", [(chars!"qt", chars!"com.apple.quicktime.information"), (chars!"qt", chars!"\u00c2\u00a9inf")], .str⟩,
     ⟨chars!"Keywords", [(chars!"qt", chars!"com.apple.quicktime.keywords"), (chars!"qt", chars!"\u00c2\u00a9key")], .strs .ordered⟩,
     ⟨chars!"LocationBody", [(chars!"qt", chars!"com.apple.quicktime.location.body"), (chars!"qt", chars!"-")], .str⟩,
     ⟨chars!"LocationDate", [(chars!"qt", chars!"com.apple.quicktime.location.date"), (chars!"qt", chars!"-")], .text chars!"xmp.Date"⟩,
     ⟨chars!"LocationISO6709", [(chars!"qt", chars!"com.apple.quicktime.location.iso6709"), (chars!"qt", chars!"\u00c2\u00a9xyz")], .str⟩,
     ⟨chars!"LocationName", [(chars!"qt", chars!"com.apple.quicktime.location.name"), (chars!"qt", chars!"-")], .str⟩,
     ⟨chars!"LocationNote", [(chars!"qt", chars!"com.apple.quicktime.location.note"), (chars!"qt", chars!"-")], .str⟩,
     ⟨chars!"LocationRole", [(chars!"qt", chars!"com.apple.quicktime.location.role"), (chars!"qt", chars!"-")], .int 64⟩,
     ⟨chars!"Make", [(chars!"qt", chars!"com.apple.quicktime.make"), (chars!"qt", chars!"\u00c2\u00a9mak")], .str⟩,
     ⟨chars!"Model", [(chars!"qt", chars!"com.apple.quicktime.model"), (chars!"qt", chars!"\u00c2\u00a9mod")], .str⟩,
     ⟨chars!"OriginalArtist", [(chars!"qt", chars!"com.apple.quicktime.originalartist"), (chars!"qt", chars!"\u00c2\u00a9ope")], .str⟩,
     ⟨chars!"Performer", [(chars!"qt", chars!"com.apple.quicktime.performer"), (chars!"qt", chars!"\u00c2\u00a9prf")], .str⟩,
     ⟨chars!"PhonogramRights", [(chars!"qt", chars!"com.apple.quicktime.phonogramrights"), (chars!"qt", chars!"\u00c2\u00a9phg")], .str⟩,
     ⟨chars!"Producer", [(chars!"qt", chars!"com.apple.quicktime.producer"), (chars!"qt", chars!"\u00c2\u00a9prd")], .str⟩,
     ⟨chars!"Publisher", [(chars!"qt", chars!"com.apple.quicktime.publisher"), (chars!"qt", chars!"\u00c2\u00a9pub")], .str⟩,
     ⟨chars!"USRating", [(chars!"qt", chars!"com.apple.quicktime.rating.user"), (chars!"qt", chars!"rtng")], .text chars!"float64"⟩,
     ⟨chars!"Software", [(chars!"qt", chars!"com.apple.quicktime.software"), (chars!"qt", chars!"\u00c2\u00a9swr")], .str⟩,
     ⟨chars!"Title", [(chars!"qt", chars!"com.apple.quicktime.title"), (chars!"qt", chars!"\u00c2\u00a9nam")], .str⟩,
     ⟨chars!"Year", [(chars!"qt", chars!"com.apple.quicktime.year"), (chars!"qt", chars!"yrrc")], .int 64⟩,
     ⟨chars!"Version", [(chars!"qt", chars!"com.apple.quicktime.version"), (chars!"qt", chars!"VERS")], .str⟩,
     ⟨chars!"PreferredAffineTransform", [(chars!"qt", chars!"com.apple.quicktime.preferred-affine-transform"), (chars!"qt", chars!"-")], .str⟩,
     ⟨chars!"VideoOrientation", [(chars!"qt", chars!"com.apple.quicktime.video-orientation"), (chars!"qt", chars!"-")], .int 64⟩,
     ⟨chars!"WindowLocation", [(chars!"qt", chars!"com.apple.quicktime.windowlocation"), (chars!"qt", chars!"WLOC")], .text chars!"qt.Point"⟩,
     ⟨chars!"CoreMotion", [(chars!"qt", chars!"com.apple.quicktime.core-motion"), (chars!"qt", chars!"-")], .str⟩,
     ⟨chars!"CameraDebugInfo", [(chars!"qt", chars!"com.apple.quicktime.camera-debug-info"), (chars!"qt", chars!"-")], .str⟩,
     ⟨chars!"IsMontage", [(chars!"qt", chars!"com.apple.quicktime.is-montage"), (chars!"qt", chars!"-")], .str⟩,
     ⟨chars!"PixelDensity", [(chars!"qt", chars!"com.apple.quicktime.pixeldensity"), (chars!"qt", chars!"-")], .str⟩,
     ⟨chars!"DetectedFace", [(chars!"qt", chars!"com.apple.quicktime.detected-face"), (chars!"qt", chars!"-")], .str⟩,
     ⟨chars!"HasEAN13", [(chars!"qt", chars!"com.apple.quicktime.detected-machine-readable-code.EAN13"), (chars!"qt", chars!"-")], .int 64⟩,
     ⟨chars!"HasEAN8", [(chars!"qt", chars!"com.apple.quicktime.detected-machine-readable-code.EAN8"), (chars!"qt", chars!"-")], .int 64⟩,
     ⟨chars!"HasUPCE", [(chars!"qt", chars!"com.apple.quicktime.detected-machine-readable-code.UPCE"), (chars!"qt", chars!"-")], .int 64⟩,
     ⟨chars!"HasCode39", [(chars!"qt", chars!"com.apple.quicktime.detected-machine-readable-code.Code39"), (chars!"qt", chars!"-")], .int 64⟩,
     ⟨chars!"HasCode39Checksum", [(chars!"qt", chars!"com.apple.quicktime.detected-machine-readable-code.Code39Checksum"), (chars!"qt", chars!"-")], .int 64⟩,
     ⟨chars!"HasCode93", [(chars!"qt", chars!"com.apple.quicktime.detected-machine-readable-code.Code93"), (chars!"qt", chars!"-")], .int 64⟩,
     ⟨chars!"HasCode128", [(chars!"qt", chars!"com.apple.quicktime.detected-machine-readable-code.Code128"), (chars!"qt", chars!"-")], .int 64⟩,
     ⟨chars!"HasI2of5", [(chars!"qt", chars!"com.apple.quicktime.detected-machine-readable-code.I2of5"), (chars!"qt", chars!"-")], .int 64⟩,
     ⟨chars!"HasITF14", [(chars!"qt", chars!"com.apple.quicktime.detected-machine-readable-code.ITF14"), (chars!"qt", chars!"-")], .int 64⟩,
     ⟨chars!"HasDataMatrix", [(chars!"qt", chars!"com.apple.quicktime.detected-machine-readable-code.DataMatrix"), (chars!"qt", chars!"-")], .int 64⟩,
     ⟨chars!"HasQR", [(chars!"qt", chars!"com.apple.quicktime.detected-machine-readable-code.QR"), (chars!"qt", chars!"-")], .int 64⟩,
     ⟨chars!"HasAztec", [(chars!"qt", chars!"com.apple.quicktime.detected-machine-readable-code.Aztec"), (chars!"qt", chars!"-")], .int 64⟩,
     ⟨chars!"HasPDF417", [(chars!"qt", chars!"com.apple.quicktime.detected-machine-readable-code.PDF417"), (chars!"qt", chars!"-")], .int 64⟩,
     ⟨chars!"Extension", [(chars!"qt", chars!",any"), (chars!"qt", chars!",any")], .list chars!"xmp.TagList"⟩,
     ⟨chars!"Location", [(chars!"qt", chars!"-"), (chars!"qt", chars!"-")], .ptr (.stub chars!"qt.Location")⟩]

/-- models/qt/qt_player.go:22-34, methods models/qt/qt_player.go:56-74. -/
def m_qt_QtPlayer : TagModel where
  typ := chars!"qt.QtPlayer"
  ns := chars!"qt"
  names := .asIs
  rows :=
    [⟨chars!"AudioBalance", [(chars!"qt", chars!"com.apple.quicktime.player.movie.audio.balance")], .text chars!"float32"⟩,
     ⟨chars!"AudioBass", [(chars!"qt", chars!"com.apple.quicktime.player.movie.audio.bass")], .text chars!"float32"⟩,
     ⟨chars!"AudioGain", [(chars!"qt", chars!"com.apple.quicktime.player.movie.audio.gain")], .text chars!"float32"⟩,
     ⟨chars!"AudioMute", [(chars!"qt", chars!"com.apple.quicktime.player.movie.audio.mute")], .int 64⟩,
     ⟨chars!"AudioPitchshift", [(chars!"qt", chars!"com.apple.quicktime.player.movie.audio.pitchshift")], .text chars!"float32"⟩,
     ⟨chars!"AudioTreble", [(chars!"qt", chars!"com.apple.quicktime.player.movie.audio.treble")], .text chars!"float32"⟩,
     ⟨chars!"VisualBrightness", [(chars!"qt", chars!"com.apple.quicktime.player.movie.visual.brightness")], .text chars!"float32"⟩,
     ⟨chars!"VisualColor", [(chars!"qt", chars!"com.apple.quicktime.player.movie.visual.color")], .text chars!"float32"⟩,
     ⟨chars!"VisualContrast", [(chars!"qt", chars!"com.apple.quicktime.player.movie.visual.contrast")], .text chars!"float32"⟩,
     ⟨chars!"VisualTint", [(chars!"qt", chars!"com.apple.quicktime.player.movie.visual.tint")], .text chars!"float32"⟩,
     ⟨chars!"Version", [(chars!"qt", chars!"com.apple.quicktime.player.version")], .str⟩]

/-- models/qt/qt_proapps.go:22-72, methods models/qt/qt_proapps.go:94-112. -/
def m_qt_QtProApps : TagModel where
  typ := chars!"qt.QtProApps"
  ns := chars!"qt"
  names := .asIs
  rows :=
    [⟨chars!"ClipID", [(chars!"qt", chars!"com.apple.proapps.clipID")], .str⟩,
     ⟨chars!"OriginalFormat", [(chars!"qt", chars!"com.apple.proapps.originalFormat")], .str⟩,
     ⟨chars!"CustomColor", [(chars!"qt", chars!"com.apple.proapps.customcolor")], .str⟩,
     ⟨chars!"CameraName", [(chars!"qt", chars!"com.apple.proapps.cameraName")], .str⟩,
     ⟨chars!"MIOCameraName", [(chars!"qt", chars!"com.apple.proapps.mio.cameraName")], .str⟩,
     ⟨chars!"Scene", [(chars!"qt", chars!"com.apple.proapps.scene")], .str⟩,
     ⟨chars!"Shot", [(chars!"qt", chars!"com.apple.proapps.shot")], .str⟩,
     ⟨chars!"Angle", [(chars!"qt", chars!"com.apple.proapps.angle")], .str⟩,
     ⟨chars!"LogNote", [(chars!"qt", chars!"com.apple.proapps.logNote")], .str⟩,
     ⟨chars!"LastUpdateDate", [(chars!"qt", chars!"com.apple.proapps.lastupdatedate")], .text chars!"xmp.Date"⟩,
     ⟨chars!"IngestDateDescription", [(chars!"qt", chars!"com.apple.proapps.ingestDate.description")], .str⟩,
     ⟨chars!"StartTimeCodeFrameCount", [(chars!"qt", chars!"com.apple.proapps.avchd.startTimeCodeFrameCount")], .int 64⟩,
     ⟨chars!"DropFrame", [(chars!"qt", chars!"com.apple.proapps.avchd.dropFrame")], .int 64⟩,
     ⟨chars!"VideoFrameDuration", [(chars!"qt", chars!"com.apple.proapps.avchd.videoFrameDuration")], .int 64⟩,
     ⟨chars!"Category", [(chars!"qt", chars!"com.apple.proapps.share.category")], .str⟩,
     ⟨chars!"ShareID", [(chars!"qt", chars!"com.apple.proapps.share.id")], .str⟩,
     ⟨chars!"EpisodeID", [(chars!"qt", chars!"com.apple.proapps.share.episodeID")], .str⟩,
     ⟨chars!"EpisodeNumber", [(chars!"qt", chars!"com.apple.proapps.share.episodeNumber")], .str⟩,
     ⟨chars!"MediaKind", [(chars!"qt", chars!"com.apple.proapps.share.mediaKind")], .str⟩,
     ⟨chars!"Screenwriters", [(chars!"qt", chars!"com.apple.proapps.share.screenWriter")], .str⟩,
     ⟨chars!"SeasonNumber", [(chars!"qt", chars!"com.apple.proapps.share.seasonNumber")], .str⟩,
     ⟨chars!"TVNetwork", [(chars!"qt", chars!"com.apple.proapps.share.tvNetwork")], .str⟩,
     ⟨chars!"Reel", [(chars!"qt", chars!"com.apple.proapps.reel")], .str⟩,
     ⟨chars!"CameraID", [(chars!"qt", chars!"com.apple.proapps.cameraID")], .str⟩,
     ⟨chars!"CameraManufacturer", [(chars!"qt", chars!"com.apple.proapps.manufacturer")], .str⟩,
     ⟨chars!"CameraModel", [(chars!"qt", chars!"com.apple.proapps.modelname")], .str⟩,
     ⟨chars!"CameraSerialNumber", [(chars!"qt", chars!"com.apple.proapps.serialno")], .str⟩,
     ⟨chars!"ClipFileName", [(chars!"qt", chars!"com.apple.proapps.clipFileName")], .str⟩,
     ⟨chars!"AscCDL", [(chars!"qt", chars!"com.apple.proapps.color.asc-cdl")], .str⟩,
     ⟨chars!"IsGood", [(chars!"qt", chars!"com.apple.proapps.isGood")], .str⟩,
     ⟨chars!"DataSize", [(chars!"qt", chars!"com.apple.proapps.dataSize")], .str⟩,
     ⟨chars!"DisplayFormat", [(chars!"qt", chars!"com.apple.proapps.displayFormat")], .str⟩,
     ⟨chars!"ShootingRate", [(chars!"qt", chars!"com.apple.proapps.shootingRate")], .str⟩,
     ⟨chars!"VideoBitrate", [(chars!"qt", chars!"com.apple.proapps.videoBitrate")], .str⟩,
     ⟨chars!"Pulldown", [(chars!"qt", chars!"com.apple.proapps.pulldown")], .str⟩,
     ⟨chars!"MediaRate", [(chars!"qt", chars!"com.apple.proapps.mediaRate")], .str⟩,
     ⟨chars!"TimecodeFormat", [(chars!"qt", chars!"com.apple.proapps.timecodeFormat")], .str⟩,
     ⟨chars!"NumberOfAudioChannels", [(chars!"qt", chars!"com.apple.proapps.numberOfAudioChannels")], .str⟩,
     ⟨chars!"SampleRate", [(chars!"qt", chars!"com.apple.proapps.sampleRate")], .str⟩,
     ⟨chars!"BitsPerSample", [(chars!"qt", chars!"com.apple.proapps.bitsPerSample")], .str⟩,
     ⟨chars!"StudioAlphaHandling", [(chars!"qt", chars!"com.apple.proapps.studio.alphaHandling")], .str⟩,
     ⟨chars!"StudioCameraAngle", [(chars!"qt", chars!"com.apple.proapps.studio.angle")], .str⟩,
     ⟨chars!"StudioAnamorphicOverride", [(chars!"qt", chars!"com.apple.proapps.studio.metadataAnamorphicType")], .str⟩,
     ⟨chars!"StudioDeinterlace", [(chars!"qt", chars!"com.apple.proapps.studio.metadataDeinterlaceType")], .str⟩,
     ⟨chars!"StudioFieldDominanceOverride", [(chars!"qt", chars!"com.apple.proapps.studio.metadataFieldDominanceOverride")], .str⟩,
     ⟨chars!"StudioLocation", [(chars!"qt", chars!"com.apple.proapps.studio.metadataLocation")], .str⟩,
     ⟨chars!"StudioReel", [(chars!"qt", chars!"com.apple.proapps.studio.reel")], .str⟩,
     ⟨chars!"StudioScene", [(chars!"qt", chars!"com.apple.proapps.studio.scene")], .str⟩,
     ⟨chars!"StudioShot", [(chars!"qt", chars!"com.apple.proapps.studio.shot")], .str⟩]

/-- models/riff/model.go:54-145, methods models/riff/model.go:222-249. -/
def m_riff : TagModel where
  typ := chars!"riff.RiffInfo"
  ns := chars!"riffinfo"
  names := .asIs
  rows :=
    [⟨chars!"ArchiveLocation", [(chars!"riffinfo", chars!"IARL")], .str⟩,
     ⟨chars!"Artist", [(chars!"riffinfo", chars!"IART")], .str⟩,
     ⟨chars!"CommissionedBy", [(chars!"riffinfo", chars!"ICMS")], .setOnly chars!"riff.StringArray"⟩,
     ⟨chars!"Comments", [(chars!"riffinfo", chars!"ICMT")], .str⟩,
     ⟨chars!"Copyright", [(chars!"riffinfo", chars!"ICOP")], .setOnly chars!"riff.AltString"⟩,
     ⟨chars!"CreateDate", [(chars!"riffinfo", chars!"ICRD")], .text chars!"xmp.Date"⟩,
     ⟨chars!"Engineeer", [(chars!"riffinfo", chars!"IENG")], .str⟩,
     ⟨chars!"Genre", [(chars!"riffinfo", chars!"IGNR")], .str⟩,
     ⟨chars!"Keywords", [(chars!"riffinfo", chars!"IKEY")], .setOnly chars!"riff.StringArray"⟩,
     ⟨chars!"SourceMedium", [(chars!"riffinfo", chars!"IMED")], .str⟩,
     ⟨chars!"Title", [(chars!"riffinfo", chars!"INAM")], .setOnly chars!"riff.AltString"⟩,
     ⟨chars!"Product", [(chars!"riffinfo", chars!"IPRD")], .str⟩,
     ⟨chars!"Description", [(chars!"riffinfo", chars!"ISBJ")], .setOnly chars!"riff.AltString"⟩,
     ⟨chars!"Software", [(chars!"riffinfo", chars!"ISFT")], .str⟩,
     ⟨chars!"SourceCredit", [(chars!"riffinfo", chars!"ISRC")], .str⟩,
     ⟨chars!"SourceType", [(chars!"riffinfo", chars!"ISRF")], .setOnly chars!"riff.StringArray"⟩,
     ⟨chars!"Technician", [(chars!"riffinfo", chars!"ITCH")], .str⟩,
     ⟨chars!"Rated", [(chars!"riffinfo", chars!"AGES")], .str⟩, ⟨chars!"Comment", [(chars!"riffinfo", chars!"CMNT")], .str⟩,
     ⟨chars!"EncodedBy", [(chars!"riffinfo", chars!"CODE")], .str⟩,
     ⟨chars!"Comments2", [(chars!"riffinfo", chars!"COMM")], .str⟩,
     ⟨chars!"Directory", [(chars!"riffinfo", chars!"DIRC")], .str⟩,
     ⟨chars!"SoundSchemeTitle", [(chars!"riffinfo", chars!"DISP")], .str⟩,
     ⟨chars!"DateTimeOriginal", [(chars!"riffinfo", chars!"DTIM")], .str⟩,
     ⟨chars!"Genre2", [(chars!"riffinfo", chars!"GENR")], .str⟩,
     ⟨chars!"ArchivalLocation", [(chars!"riffinfo", chars!"IARL")], .str⟩,
     ⟨chars!"FirstLanguage", [(chars!"riffinfo", chars!"IAS1")], .str⟩,
     ⟨chars!"SecondLanguage", [(chars!"riffinfo", chars!"IAS2")], .str⟩,
     ⟨chars!"ThirdLanguage", [(chars!"riffinfo", chars!"IAS3")], .str⟩,
     ⟨chars!"FourthLanguage", [(chars!"riffinfo", chars!"IAS4")], .str⟩,
     ⟨chars!"FifthLanguage", [(chars!"riffinfo", chars!"IAS5")], .str⟩,
     ⟨chars!"SixthLanguage", [(chars!"riffinfo", chars!"IAS6")], .str⟩,
     ⟨chars!"SeventhLanguage", [(chars!"riffinfo", chars!"IAS7")], .str⟩,
     ⟨chars!"EighthLanguage", [(chars!"riffinfo", chars!"IAS8")], .str⟩,
     ⟨chars!"NinthLanguage", [(chars!"riffinfo", chars!"IAS9")], .str⟩,
     ⟨chars!"BaseURL", [(chars!"riffinfo", chars!"IBSU")], .str⟩,
     ⟨chars!"DefaultAudioStream", [(chars!"riffinfo", chars!"ICAS")], .str⟩,
     ⟨chars!"CostumeDesigner", [(chars!"riffinfo", chars!"ICDS")], .str⟩,
     ⟨chars!"Commissioned", [(chars!"riffinfo", chars!"ICMS")], .str⟩,
     ⟨chars!"Cinematographer", [(chars!"riffinfo", chars!"ICNM")], .str⟩,
     ⟨chars!"Country", [(chars!"riffinfo", chars!"ICNT")], .str⟩,
     ⟨chars!"Cropped", [(chars!"riffinfo", chars!"ICRP")], .str⟩,
     ⟨chars!"Dimensions", [(chars!"riffinfo", chars!"IDIM")], .str⟩,
     ⟨chars!"DateTimeOriginal2", [(chars!"riffinfo", chars!"IDIT")], .str⟩,
     ⟨chars!"DotsPerInch", [(chars!"riffinfo", chars!"IDPI")], .str⟩,
     ⟨chars!"DistributedBy", [(chars!"riffinfo", chars!"IDST")], .str⟩,
     ⟨chars!"EditedBy", [(chars!"riffinfo", chars!"IEDT")], .str⟩,
     ⟨chars!"EncodedBy2", [(chars!"riffinfo", chars!"IENC")], .str⟩,
     ⟨chars!"Lightness", [(chars!"riffinfo", chars!"ILGT")], .str⟩,
     ⟨chars!"LogoURL", [(chars!"riffinfo", chars!"ILGU")], .str⟩,
     ⟨chars!"LogoIconURL", [(chars!"riffinfo", chars!"ILIU")], .str⟩,
     ⟨chars!"Language", [(chars!"riffinfo", chars!"ILNG")], .str⟩,
     ⟨chars!"MoreInfoBannerImage", [(chars!"riffinfo", chars!"IMBI")], .str⟩,
     ⟨chars!"MoreInfoBannerURL", [(chars!"riffinfo", chars!"IMBU")], .str⟩,
     ⟨chars!"MoreInfoText", [(chars!"riffinfo", chars!"IMIT")], .str⟩,
     ⟨chars!"MoreInfoURL", [(chars!"riffinfo", chars!"IMIU")], .str⟩,
     ⟨chars!"MusicBy", [(chars!"riffinfo", chars!"IMUS")], .str⟩,
     ⟨chars!"ProductionDesigner", [(chars!"riffinfo", chars!"IPDS")], .str⟩,
     ⟨chars!"NumColors", [(chars!"riffinfo", chars!"IPLT")], .str⟩,
     ⟨chars!"ProducedBy", [(chars!"riffinfo", chars!"IPRO")], .str⟩,
     ⟨chars!"RippedBy", [(chars!"riffinfo", chars!"IRIP")], .str⟩,
     ⟨chars!"Rating", [(chars!"riffinfo", chars!"IRTD")], .str⟩,
     ⟨chars!"SecondaryGenre", [(chars!"riffinfo", chars!"ISGN")], .str⟩,
     ⟨chars!"Sharpness", [(chars!"riffinfo", chars!"ISHP")], .str⟩,
     ⟨chars!"TimeCode", [(chars!"riffinfo", chars!"ISMP")], .str⟩,
     ⟨chars!"ProductionStudio", [(chars!"riffinfo", chars!"ISTD")], .str⟩,
     ⟨chars!"Starring", [(chars!"riffinfo", chars!"ISTR")], .str⟩,
     ⟨chars!"WatermarkURL", [(chars!"riffinfo", chars!"IWMU")], .str⟩,
     ⟨chars!"WrittenBy", [(chars!"riffinfo", chars!"IWRI")], .str⟩,
     ⟨chars!"Language2", [(chars!"riffinfo", chars!"LANG")], .str⟩,
     ⟨chars!"Location", [(chars!"riffinfo", chars!"LOCA")], .str⟩, ⟨chars!"Part", [(chars!"riffinfo", chars!"PRT1")], .str⟩,
     ⟨chars!"NumberOfParts", [(chars!"riffinfo", chars!"PRT2")], .str⟩,
     ⟨chars!"Rate", [(chars!"riffinfo", chars!"RATE")], .str⟩, ⟨chars!"Starring2", [(chars!"riffinfo", chars!"STAR")], .str⟩,
     ⟨chars!"Statistics", [(chars!"riffinfo", chars!"STAT")], .str⟩,
     ⟨chars!"TapeName", [(chars!"riffinfo", chars!"TAPE")], .str⟩,
     ⟨chars!"EndTimecode", [(chars!"riffinfo", chars!"TCDO")], .str⟩,
     ⟨chars!"StartTimecode", [(chars!"riffinfo", chars!"TCOD")], .str⟩,
     ⟨chars!"Title2", [(chars!"riffinfo", chars!"TITL")], .str⟩, ⟨chars!"Length", [(chars!"riffinfo", chars!"TLEN")], .str⟩,
     ⟨chars!"Organization", [(chars!"riffinfo", chars!"TORG")], .str⟩,
     ⟨chars!"TrackNumber", [(chars!"riffinfo", chars!"TRCK")], .str⟩,
     ⟨chars!"URL", [(chars!"riffinfo", chars!"TURL")], .str⟩, ⟨chars!"Version", [(chars!"riffinfo", chars!"TVER")], .str⟩,
     ⟨chars!"VegasVersionMajor", [(chars!"riffinfo", chars!"VMAJ")], .str⟩,
     ⟨chars!"VegasVersionMinor", [(chars!"riffinfo", chars!"VMIN")], .str⟩,
     ⟨chars!"Year", [(chars!"riffinfo", chars!"YEAR")], .str⟩]

/-- models/tiff/model.go:56-92, methods models/tiff/model.go:163-181. -/
def m_tiff : TagModel where
  typ := chars!"tiff.TiffInfo"
  ns := chars!"tiff"
  names := .asIs
  rows :=
    [⟨chars!"Artist", [], .strs .ordered⟩, ⟨chars!"BitsPerSample", [], .list chars!"xmp.IntList"⟩,
     ⟨chars!"Compression", [], .int 64⟩, ⟨chars!"DateTime", [], .text chars!"xmp.Date"⟩, ⟨chars!"ImageLength", [], .int 64⟩,
     ⟨chars!"ImageWidth", [], .int 64⟩, ⟨chars!"Make", [], .str⟩, ⟨chars!"Model", [], .str⟩, ⟨chars!"Software", [], .str⟩,
     ⟨chars!"ImageDescription", [], .alt⟩, ⟨chars!"Copyright", [], .alt⟩, ⟨chars!"Orientation", [], .int 64⟩,
     ⟨chars!"PhotometricInterpretation", [], .int 64⟩, ⟨chars!"PlanarConfiguration", [], .int 64⟩,
     ⟨chars!"PrimaryChromaticities", [], .list chars!"xmp.RationalArray"⟩,
     ⟨chars!"ReferenceBlackWhite", [], .list chars!"xmp.RationalArray"⟩, ⟨chars!"ResolutionUnit", [], .int 64⟩,
     ⟨chars!"SamplesPerPixel", [], .int 64⟩, ⟨chars!"TransferFunction", [], .list chars!"xmp.IntList"⟩,
     ⟨chars!"WhitePoint", [], .list chars!"xmp.RationalArray"⟩, ⟨chars!"XResolution", [], .text chars!"xmp.Rational"⟩,
     ⟨chars!"YCbCrCoefficients", [], .list chars!"xmp.RationalArray"⟩, ⟨chars!"YCbCrPositioning", [], .int 64⟩,
     ⟨chars!"YCbCrSubSampling", [], .list chars!"tiff.YCbCrSubSampling"⟩,
     ⟨chars!"YResolution", [], .text chars!"xmp.Rational"⟩, ⟨chars!"NativeDigest", [], .str⟩, ⟨chars!"X_Artist", [], .str⟩,
     ⟨chars!"X_DateTime", [], .text chars!"xmp.Date"⟩, ⟨chars!"X_Software", [], .str⟩,
     ⟨chars!"X_ImageDescription", [], .alt⟩, ⟨chars!"X_Copyright", [], .alt⟩]

/-- models/xmp_base/model.go:59-72, methods models/xmp_base/model.go:125-143. -/
def m_xmp_base : TagModel where
  typ := chars!"xmp_base.XmpBase"
  ns := chars!"xmp"
  names := .asIs
  rows :=
    [⟨chars!"Advisory", [(chars!"xmp", chars!"xmp:Advisory")], .strs .unordered⟩,
     ⟨chars!"BaseURL", [(chars!"xmp", chars!"xmp:BaseURL")], .str⟩,
     ⟨chars!"CreateDate", [(chars!"xmp", chars!"xmp:CreateDate")], .text chars!"xmp.Date"⟩,
     ⟨chars!"CreatorTool", [(chars!"xmp", chars!"xmp:CreatorTool")], .str⟩,
     ⟨chars!"Identifier", [(chars!"xmp", chars!"xmp:Identifier")], .list chars!"xmp_base.IdentifierArray"⟩,
     ⟨chars!"Label", [(chars!"xmp", chars!"xmp:Label")], .str⟩,
     ⟨chars!"MetadataDate", [(chars!"xmp", chars!"xmp:MetadataDate")], .text chars!"xmp.Date"⟩,
     ⟨chars!"ModifyDate", [(chars!"xmp", chars!"xmp:ModifyDate")], .text chars!"xmp.Date"⟩,
     ⟨chars!"Nickname", [(chars!"xmp", chars!"xmp:Nickname")], .str⟩,
     ⟨chars!"Rating", [(chars!"xmp", chars!"xmp:Rating")], .int 64⟩,
     ⟨chars!"Thumbnails", [(chars!"xmp", chars!"xmp:Thumbnails")], .list chars!"xmp_base.ThumbnailArray"⟩,
     ⟨chars!"Extensions", [(chars!"xmp", chars!"xmp:extension")], .list chars!"xmp.NamedExtensionArray"⟩]

/-- models/xmp_bj/model.go:53-55, methods models/xmp_bj/model.go:77-95. -/
def m_xmp_bj : TagModel where
  typ := chars!"xmp_bj.JobTicket"
  ns := chars!"xmpBJ"
  names := .asIs
  rows :=
    [⟨chars!"JobRef", [], .list chars!"xmp_bj.JobArray"⟩]

/-- models/xmp_dm/model.go:52-128, methods models/xmp_dm/model.go:150-168. -/
def m_xmp_dm : TagModel where
  typ := chars!"xmp_dm.XmpDM"
  ns := chars!"xmpDM"
  names := .asIs
  rows :=
    [⟨chars!"AbsPeakAudioFilePath", [], .str⟩, ⟨chars!"Album", [], .str⟩, ⟨chars!"AltTapeName", [], .str⟩,
     ⟨chars!"AltTimecode", [], .mute chars!"xmp_dm.Timecode"⟩, ⟨chars!"Artist", [], .str⟩,
     ⟨chars!"AudioChannelType", [], .str⟩, ⟨chars!"AudioCompressor", [], .str⟩,
     ⟨chars!"AudioSampleRate", [], .text chars!"float64"⟩, ⟨chars!"AudioSampleType", [], .str⟩,
     ⟨chars!"BeatSpliceParams", [], .mute chars!"xmp_dm.BeatSpliceStretch"⟩, ⟨chars!"CameraAngle", [], .str⟩,
     ⟨chars!"CameraLabel", [], .str⟩, ⟨chars!"CameraModel", [], .str⟩, ⟨chars!"CameraMove", [], .str⟩,
     ⟨chars!"Client", [], .str⟩, ⟨chars!"Comment", [], .str⟩, ⟨chars!"Composer", [], .str⟩,
     ⟨chars!"ContributedMedia", [], .list chars!"xmp_dm.MediaArray"⟩, ⟨chars!"Director", [], .str⟩,
     ⟨chars!"DirectorPhotography", [], .str⟩, ⟨chars!"Duration", [], .mute chars!"xmp_dm.MediaTime"⟩,
     ⟨chars!"Engineer", [], .str⟩, ⟨chars!"FileDataRate", [], .text chars!"xmp.Rational"⟩, ⟨chars!"Genre", [], .str⟩,
     ⟨chars!"Good", [], .text chars!"xmp.Bool"⟩, ⟨chars!"Instrument", [], .str⟩,
     ⟨chars!"IntroTime", [], .mute chars!"xmp_dm.MediaTime"⟩, ⟨chars!"Key", [], .str⟩, ⟨chars!"LogComment", [], .str⟩,
     ⟨chars!"Loop", [], .text chars!"xmp.Bool"⟩, ⟨chars!"NumberOfBeats", [], .text chars!"float64"⟩,
     ⟨chars!"Markers", [], .list chars!"xmp_dm.MarkerList"⟩, ⟨chars!"OutCue", [], .mute chars!"xmp_dm.MediaTime"⟩,
     ⟨chars!"ProjectName", [], .str⟩, ⟨chars!"ProjectRef", [], .mute chars!"xmp_dm.ProjectLink"⟩,
     ⟨chars!"PullDown", [], .str⟩, ⟨chars!"RelativePeakAudioFilePath", [], .str⟩,
     ⟨chars!"RelativeTimestamp", [], .mute chars!"xmp_dm.MediaTime"⟩, ⟨chars!"ReleaseDate", [], .text chars!"xmp.Date"⟩,
     ⟨chars!"ResampleParams", [], .mute chars!"xmp_dm.ResampleStretch"⟩, ⟨chars!"ScaleType", [], .str⟩,
     ⟨chars!"Scene", [], .str⟩, ⟨chars!"ShotDate", [], .text chars!"xmp.Date"⟩, ⟨chars!"ShotDay", [], .str⟩,
     ⟨chars!"ShotLocation", [], .str⟩, ⟨chars!"ShotName", [], .str⟩, ⟨chars!"ShotNumber", [], .str⟩,
     ⟨chars!"ShotSize", [], .str⟩, ⟨chars!"SpeakerPlacement", [], .str⟩,
     ⟨chars!"StartTimecode", [], .mute chars!"xmp_dm.Timecode"⟩, ⟨chars!"StretchMode", [], .str⟩,
     ⟨chars!"TakeNumber", [], .int 64⟩, ⟨chars!"TapeName", [], .str⟩, ⟨chars!"Tempo", [], .text chars!"float64"⟩,
     ⟨chars!"TimeScaleParams", [], .mute chars!"xmp_dm.TimeScaleStretch"⟩, ⟨chars!"TimeSignature", [], .str⟩,
     ⟨chars!"TrackNumber", [], .int 64⟩, ⟨chars!"Tracks", [], .list chars!"xmp_dm.TrackArray"⟩,
     ⟨chars!"VideoAlphaMode", [], .str⟩, ⟨chars!"VideoAlphaPremultipleColor", [], .mute chars!"xmp_tpg.Colorant"⟩,
     ⟨chars!"VideoAlphaUnityIsTransparent", [], .text chars!"xmp.Bool"⟩, ⟨chars!"VideoColorSpace", [], .str⟩,
     ⟨chars!"VideoCompressor", [], .str⟩, ⟨chars!"VideoFieldOrder", [], .str⟩,
     ⟨chars!"VideoFrameRate", [], .text chars!"xmp_dm.VideoFrameRate"⟩,
     ⟨chars!"VideoFrameSize", [], .mute chars!"xmp_tpg.Dimensions"⟩, ⟨chars!"VideoPixelDepth", [], .str⟩,
     ⟨chars!"VideoPixelAspectRatio", [], .text chars!"xmp.Rational"⟩,
     ⟨chars!"PartOfCompilation", [], .text chars!"xmp.Bool"⟩, ⟨chars!"Lyrics", [], .str⟩, ⟨chars!"DiscNumber", [], .int 64⟩,
     ⟨chars!"StartTimeScale", [], .int 64⟩, ⟨chars!"StartTimeSampleSize", [], .int 64⟩]

/-- models/xmp_mm/model.go:58-75, methods models/xmp_mm/model.go:97-115. -/
def m_xmp_mm : TagModel where
  typ := chars!"xmp_mm.XmpMM"
  ns := chars!"xmpMM"
  names := .asIs
  rows :=
    [⟨chars!"DerivedFrom", [], .ptr (.mute chars!"xmp_mm.ResourceRef")⟩, ⟨chars!"DocumentID", [], .text chars!"xmp.GUID"⟩,
     ⟨chars!"History", [], .list chars!"xmp_mm.ResourceEventArray"⟩,
     ⟨chars!"Ingredients", [], .list chars!"xmp_mm.ResourceRefArray"⟩, ⟨chars!"InstanceID", [], .text chars!"xmp.GUID"⟩,
     ⟨chars!"ManagedFrom", [], .ptr (.mute chars!"xmp_mm.ResourceRef")⟩, ⟨chars!"Manager", [], .str⟩,
     ⟨chars!"ManageTo", [], .str⟩, ⟨chars!"ManageUI", [], .str⟩, ⟨chars!"ManagerVariant", [], .str⟩,
     ⟨chars!"OriginalDocumentID", [], .text chars!"xmp.GUID"⟩, ⟨chars!"Pantry", [], .list chars!"xmp.ExtensionArray"⟩,
     ⟨chars!"RenditionClass", [], .str⟩, ⟨chars!"RenditionParams", [], .str⟩, ⟨chars!"VersionID", [], .str⟩,
     ⟨chars!"Versions", [], .list chars!"xmp_mm.StVersionArray"⟩]

/-- models/xmp_rights/model.go:51-57, methods models/xmp_rights/model.go:79-97. -/
def m_xmp_rights : TagModel where
  typ := chars!"xmp_rights.XmpRights"
  ns := chars!"xmpRights"
  names := .asIs
  rows :=
    [⟨chars!"Certificate", [], .str⟩, ⟨chars!"Marked", [], .text chars!"xmp.Bool"⟩, ⟨chars!"Owner", [], .strs .unordered⟩,
     ⟨chars!"UsageTerms", [], .alt⟩, ⟨chars!"WebStatement", [], .str⟩]

/-- models/xmp_tpg/model.go:56-65, methods models/xmp_tpg/model.go:87-105. -/
def m_xmp_tpg : TagModel where
  typ := chars!"xmp_tpg.PagedText"
  ns := chars!"xmpTPg"
  names := .asIs
  rows :=
    [⟨chars!"Colorants", [], .list chars!"xmp_tpg.ColorantList"⟩, ⟨chars!"Fonts", [], .list chars!"xmp_tpg.FontArray"⟩,
     ⟨chars!"MaxPageSize", [], .mute chars!"xmp_tpg.Dimensions"⟩, ⟨chars!"NPages", [], .int 64⟩,
     ⟨chars!"PlateNames", [], .strs .unordered⟩, ⟨chars!"HasVisibleTransparency", [], .text chars!"xmp.Bool"⟩,
     ⟨chars!"HasVisibleOverprint", [], .text chars!"xmp.Bool"⟩,
     ⟨chars!"SwatchGroups", [], .list chars!"xmp_tpg.SwatchGroupList"⟩]

/-- The models of the packages with access by tags.  `QtInfo` passes tags on to its four parts (see Model/Qt.lean). -/
def tagModels : List TagModel :=
  [m_cc, m_crs, m_dc, m_digikam, m_dji, m_exif_ExifInfo, m_exif_ExifEXInfo, m_exif_ExifAuxInfo, m_id3, m_itunes, m_ixml, m_mp4, m_pdf, m_pm, m_ps, m_qt_QtUserdata, m_qt_QtMetadata, m_qt_QtPlayer, m_qt_QtProApps, m_riff, m_tiff, m_xmp_base, m_xmp_bj, m_xmp_dm, m_xmp_mm, m_xmp_rights, m_xmp_tpg]

end Xmp.Shipped
