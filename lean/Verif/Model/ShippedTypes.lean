import Lean.Elab.Term
import Verif.Model.Shipped
import Verif.Model.TypedXmp

/-! The types of the shipped models: their fields with `xmp` tags and the methods that decide how their values are written
and read.  The second part of this file is a table of all types that occur in fields of the models. -/

namespace Xmp.Shipped

open GoStr

/-- The characters of a literal as a list, which the kernel need not compute. -/
elab:max "chars!" s:str : term => return Lean.toExpr s.getString.toList

/-- What a method `MarshalXMP` or `UnmarshalXMP` does: there is none; it writes or reads an array
(`return MarshalArray(e, node, x.Typ(), x)`), a language alternative (xmp/array.go:220-250), a language alternative without
the last step of reading (xmp/array.go:229-247: the default item and the item of its language become one again), the fields
of the struct, a text, or something else.  Methods that write the fields write nothing if `IsZero` is true, e.g.
models/xmp_bj/types.go:33-39; the types below leave this test to the reader of the theorems, which require that a struct with
a true `IsZero` has the zero value. -/
inductive XMethod where
  | none
  | array (typ : ArrayType)
  | alt
  | altRaw
  | fields
  | text
  | other
deriving DecidableEq

/-- models/riff/types.go:60-62 `AltString.UnmarshalXMP` of this package: the items as they are; `none` is an error. -/
def riffUnmarshalAlt (r : Registry) (node : Node) (out : AltString) : Option AltString :=
  unmarshalArray r (fun n => some (unmarshalAltItem n)) node out

/-- A method `IsZero`: there is none; it is true for empty strings or lists only; it is another one. -/
inductive ZMethod where
  | none
  | plain
  | own
deriving DecidableEq

/-- The methods of a type that xmp/marshal.go and xmp/unmarshal.go look for: `MarshalXMP`, `UnmarshalXMP`, `MarshalText`,
`UnmarshalText`, `IsZero`.  (No field has a type with `MarshalXMPAttr`.  `MediaTime` and `Extension` have
`UnmarshalXMPAttr`, but no field of these types is an attribute.) -/
structure Hooks where
  marshal : XMethod := .none
  unmarshal : XMethod := .none
  toText : Bool := false
  ofText : Bool := false
  zero : ZMethod := .none
deriving DecidableEq

/-- Kinds of types without parts; `time` stands for `time.Time` and for types that are not described. -/
inductive Kind where
  | int (bits : Nat)
  | uint (bits : Nat)
  | bool
  | float
  | str
  | bytes
  | time
deriving DecidableEq

/-- A Go type with its name and methods.  Structs have the infos that xmp/typeinfo.go:125-190 collects: fields tagged `-`
and private fields are left out. -/
inductive Sk where
  | leaf (name : Str) (h : Hooks) (k : Kind)
  | list (name : Str) (h : Hooks) (elem : Sk)
  | ptr (s : Sk)
  | struct (name : Str) (h : Hooks) (infos : List FieldInfo) (tys : List Sk)

/-- A struct by its fields. -/
def st (name : Str) (h : Hooks) (l : List (FieldInfo × Sk)) : Sk := .struct name h (l.map (·.1)) (l.map (·.2))

/-- A field written as an element. -/
def elF (n : Str) : FieldInfo := { name := n }
/-- A field written as an attribute. -/
def atF (n : Str) : FieldInfo := { name := n, attr := true }
/-- A field written as an element even if it is empty. -/
def emF (n : Str) : FieldInfo := { name := n, empty := true }
/-- A field written as an attribute even if it is empty. -/
def aeF (n : Str) : FieldInfo := { name := n, attr := true, empty := true }

/-! ### How values are written and read -/

/-- The forms in which a value is written or read: as a text, as fields, as an array, as a language alternative, in a form
of its own, or not at all. -/
inductive Form where
  | text
  | fields
  | array
  | alt
  | altRaw
  | other
  | nothing
deriving DecidableEq

/-- The form of a method, and the form without the method. -/
def XMethod.form (m : XMethod) (otherwise : Form) : Form :=
  match m with
  | .none => otherwise
  | .array _ => .array
  | .alt => .alt
  | .altRaw => .altRaw
  | .fields => .fields
  | .text => .text
  | .other => .other

/-- xmp/marshal.go:297-372: the form in which an element is written.  `MarshalXMP` comes first, then `MarshalText`; lists are
written as arrays, structs as their fields and everything else as a text. -/
def Sk.writes : Sk → Form
  | .leaf _ h _ => h.marshal.form .text
  | .list _ h _ => h.marshal.form (if h.toText then .text else .array)
  | .struct _ h _ _ => h.marshal.form (if h.toText then .text else .fields)
  | .ptr s => s.writes

/-- xmp/unmarshal.go:221-289: the form in which an element is read.  `UnmarshalXMP` comes first, then `UnmarshalText`; structs
are read as fields, lists not at all (`setValue`, xmp/unmarshal.go:474-519) and everything else from a text. -/
def Sk.reads : Sk → Form
  | .leaf _ h _ => h.unmarshal.form .text
  | .list _ h _ => h.unmarshal.form (if h.ofText then .text else .nothing)
  | .struct _ h _ _ => h.unmarshal.form (if h.ofText then .text else .fields)
  | .ptr s => s.reads

/-- xmp/marshal.go:519-589 `marshalAttr`: `MarshalText`, or `marshalSimple`, which fails for lists and structs. -/
def Sk.writesAttr : Sk → Form
  | .leaf _ _ _ => .text
  | .list _ h _ => if h.toText then .text else .nothing
  | .struct _ h _ _ => if h.toText then .text else .nothing
  | .ptr s => s.writesAttr

/-- xmp/unmarshal.go:291-326 `unmarshalAttr`: `UnmarshalText`; a list gets one more element; `setValue` fails for structs. -/
def Sk.readsAttr : Sk → Form
  | .leaf _ _ _ => .text
  | .list _ h _ => if h.ofText then .text else .array
  | .struct _ h _ _ => if h.ofText then .text else .nothing
  | .ptr s => s.readsAttr

/-- Is the type a struct? -/
def Sk.isStruct : Sk → Bool
  | .struct _ _ _ _ => true
  | _ => false

/-- Is an element of this type read in the form in which it is written, and is this form described here?  Lists with an
`IsZero` of their own and pointers to anything but structs are not (there are no such pointers). -/
def Sk.sound : Sk → Bool
  | .ptr s => s.isStruct && s.sound
  | .list n h e =>
    decide ((Sk.list n h e).writes = (Sk.list n h e).reads) && decide ((Sk.list n h e).writes ∈ [.text, .array, .alt]) &&
      !(decide ((Sk.list n h e).writes ≠ .text) && decide (h.zero = .own))
  | .struct n h fs ts =>
    decide ((Sk.struct n h fs ts).writes = (Sk.struct n h fs ts).reads) && decide ((Sk.struct n h fs ts).writes ∈ [.text, .fields])
  | .leaf n h k => decide ((Sk.leaf n h k).writes = .text) && decide ((Sk.leaf n h k).reads = .text)

/-- The same for an attribute. -/
def Sk.soundAttr : Sk → Bool
  | .ptr s => s.isStruct && s.soundAttr
  | s => decide (s.writesAttr = .text) && decide (s.readsAttr = .text)

/-! ### The types of `Model/Typed.lean` -/

/-- The type of fields that cannot be written and read: no value other than the zero value has a text. -/
def lost : Ty := .text ⟨fun _ => none, fun _ _ => none, fun n => n == 0, true⟩

/-- Does a type without parts have no methods but a plain `IsZero`? -/
def Hooks.simple (h : Hooks) : Bool :=
  decide (h.marshal = .none) && decide (h.unmarshal = .none) && !h.toText && !h.ofText && decide (h.zero ≠ .own)

/-- The type of a value that is written as a text.  `K` has the text forms of the types with methods and of floating point
numbers. -/
def Sk.textTy (K : Str → Codec) : Sk → Ty
  | .leaf n h k =>
    if h.simple then
      match k with
      | .int b => .int b
      | .uint b => .uint b
      | .bool => .bool
      | .str => .str
      | .bytes => .bytes
      | .float => .text (K n)
      | .time => .text (K n)
    else .text (K n)
  | .list n _ _ => .text (K n)
  | .struct n _ _ _ => .text (K n)
  | .ptr s => .ptr (s.textTy K)

/-- The array type that `MarshalXMP` writes; lists without this method are written as ordered arrays
(xmp/marshal.go:352-361). -/
def Hooks.arrayType (h : Hooks) : ArrayType :=
  match h.marshal with
  | .array t => t
  | _ => .ordered

mutual
/-- The type of a field that is written as an element.  `Z` has the methods `IsZero`. -/
def Sk.ty (K : Str → Codec) (Z : Str → List Val → Bool) : Sk → Ty
  | .leaf n h k => if (Sk.leaf n h k).sound then (Sk.leaf n h k).textTy K else lost
  | .list n h e =>
    if (Sk.list n h e).sound then
      match (Sk.list n h e).writes with
      | .text => .text (K n)
      | .alt => .alt
      | _ => .slice h.arrayType (e.ty K Z)
    else lost
  | .struct n h infos tys =>
    if (Sk.struct n h infos tys).sound then
      match (Sk.struct n h infos tys).writes with
      | .text => .text (K n)
      | _ => .struct (if h.zero = .none then none else some (Z n)) infos (Sk.tys K Z infos tys)
    else lost
  | .ptr s => if (Sk.ptr s).sound then .ptr (s.ty K Z) else lost
/-- The types of the fields of a struct. -/
def Sk.tys (K : Str → Codec) (Z : Str → List Val → Bool) : List FieldInfo → List Sk → List Ty
  | f :: fs, s :: ss => (if f.attr then (if s.soundAttr then s.textTy K else lost) else s.ty K Z) :: Sk.tys K Z fs ss
  | _, _ => []
end

/-- The type of a model.  The encoder passes it to `marshalValue` (xmp/marshal.go:161-166), so that it is written as its fields
unless it has methods of its own; the decoder reads its fields one by one (xmp/unmarshal.go:149-217) and does not look at
methods. -/
def Sk.modelTy (K : Str → Codec) (Z : Str → List Val → Bool) : Sk → Ty
  | .struct n h infos tys =>
    if (Sk.struct n h infos tys).writes = .fields then
      .struct (if h.zero = .none then none else some (Z n)) infos (Sk.tys K Z infos tys)
    else lost
  | _ => lost

/-! ### Checks of the table -/

/-- Does the name have the form `p:loc` with a prefix `p` of the list? -/
def nameIn (ps : List Str) (nm : Str) : Bool :=
  decide (':' ∈ nm) && decide (getPrefix nm ∈ ps) && decide (stripPrefix nm ≠ []) && decide (':' ∉ stripPrefix nm)

mutual
/-- The names of the fields of all structs that are written inside of a value of the type. -/
def Sk.names : Sk → List Str
  | .leaf _ _ _ => []
  | .list n h e => if (Sk.list n h e).sound && decide ((Sk.list n h e).writes = .array) then e.names else []
  | .ptr s => if (Sk.ptr s).sound then s.names else []
  | .struct n h fs ts =>
    if (Sk.struct n h fs ts).sound && decide ((Sk.struct n h fs ts).writes = .fields) then
      fs.map (·.name) ++ Sk.fieldNames fs ts
    else []
/-- The same for the types of the fields of a struct. -/
def Sk.fieldNames : List FieldInfo → List Sk → List Str
  | f :: fs, t :: ts => (if f.attr then [] else t.names) ++ Sk.fieldNames fs ts
  | _, _ => []
end

/-- Are the names distinct?  They are compared by a number. -/
def distinctNames : List Str → Bool
  | [] => true
  | x :: xs => (xs.all fun y => !(Nat.beq (number x) (number y))) && distinctNames xs
where
  /-- The characters as digits. -/
  number (s : Str) : Nat := s.foldl (fun a c => a * 256 + c.toNat) 0

mutual
/-- Do all structs inside of the type have as many types as fields, and fields with distinct names? -/
def Sk.distinct : Sk → Bool
  | .leaf _ _ _ => true
  | .list _ _ e => e.distinct
  | .ptr s => s.distinct
  | .struct _ _ fs ts => decide (fs.length = ts.length) && distinctNames (fs.map (·.name)) && Sk.distincts ts
/-- The same for a list of types. -/
def Sk.distincts : List Sk → Bool
  | [] => true
  | t :: ts => t.distinct && Sk.distincts ts
end

/-- Does a field of a model have the prefix `can`, and do the structs inside of it use prefixes of `ps` only? -/
def fieldGood (can : Str) (ps : List Str) (f : FieldInfo) (s : Sk) : Bool :=
  nameIn [can] f.name && (if f.attr then [] else s.names).all (nameIn ps)

mutual
/-- The fields inside of a type that meet a test, by the names of their struct and of the field.  The elements of an array
count as one field with the name `[]`. -/
def Sk.fieldsWith (p : FieldInfo → Sk → Bool) : Sk → List (Str × Str)
  | .leaf _ _ _ => []
  | .list n h e =>
    if (Sk.list n h e).writes = .array then (if p (elF chars!"[]") e then [(n, chars!"[]")] else []) ++ e.fieldsWith p else []
  | .ptr s => s.fieldsWith p
  | .struct n _ fs ts => Sk.allFieldsWith p n fs ts
/-- The same for the fields of the struct `n`. -/
def Sk.allFieldsWith (p : FieldInfo → Sk → Bool) (n : Str) : List FieldInfo → List Sk → List (Str × Str)
  | f :: fs, t :: ts =>
    (if p f t then [(n, f.name)] else []) ++ (if f.attr then [] else t.fieldsWith p) ++ Sk.allFieldsWith p n fs ts
  | _, _ => []
end

/-- Is a field not read in the form in which it is written, or is its form not described? -/
def unsoundField (f : FieldInfo) (t : Sk) : Bool := !(if f.attr then t.soundAttr else t.sound)

/-- Is the field written as the fields of a struct, but read as a text? -/
def readAsText (f : FieldInfo) (t : Sk) : Bool := !f.attr && decide (t.writes = .fields) && decide (t.reads = .text)

/-- Is the field an attribute of a type that has no text? -/
def attrWithoutText (f : FieldInfo) (t : Sk) : Bool := f.attr && decide (t.writesAttr ≠ .text)


/-! ### Types of Go -/

def g_byte : Sk := .leaf chars!"byte" {} (.uint 8)
def g_float32 : Sk := .leaf chars!"float32" {} .float
def g_float64 : Sk := .leaf chars!"float64" {} .float
def g_int : Sk := .leaf chars!"int" {} (.int 64)
def g_int64 : Sk := .leaf chars!"int64" {} (.int 64)
def g_string : Sk := .leaf chars!"string" {} .str
def g_bytes : Sk := .leaf chars!"[]byte" {} .bytes

/-! ### Types of the packages xmp and models -/

/-- xmp/xmp_types.go:422 (methods: 453, 428). -/
def t_xmp_Uri : Sk := .leaf chars!"xmp.Uri" { unmarshal := .text, zero := .plain } .str

/-- models/cc/model.go:57-62. -/
def t_cc_CC : Sk := st chars!"cc.CC" {}
  [(elF chars!"cc:license", t_xmp_Uri), (elF chars!"cc:morePermissions", t_xmp_Uri),
   (elF chars!"cc:attributionURL", t_xmp_Uri), (elF chars!"cc:attributionName", g_string)]

/-- xmp/xmp_types.go:53 (methods: 64, 71). -/
def t_xmp_Bool : Sk := .leaf chars!"xmp.Bool" { toText := true, ofText := true } .bool

/-- models/crs/enum.go:17. -/
def t_crs_CropUnits : Sk := .leaf chars!"crs.CropUnits" {} (.int 64)

/-- xmp/array.go:443 (methods: 510, 514, 524, 518, 459). -/
def t_xmp_StringArray : Sk := .list chars!"xmp.StringArray" { marshal := .array .unordered, unmarshal := .array .unordered, toText := true, ofText := true, zero := .plain } g_string

/-- models/crs/enum.go:25. -/
def t_crs_ToneCurve : Sk := .leaf chars!"crs.ToneCurve" {} .str

/-- models/crs/enum.go:34. -/
def t_crs_WhiteBalance : Sk := .leaf chars!"crs.WhiteBalance" {} .str

/-- models/crs/types.go:26-29 (methods: 43, 47, 31). -/
def t_crs_Point : Sk := st chars!"crs.Point" { toText := true, ofText := true, zero := .own }
  [(elF chars!"X", g_int64), (elF chars!"Y", g_int64)]

/-- models/crs/types.go:57 (methods: 63, 67). -/
def t_crs_PointList : Sk := .list chars!"crs.PointList" { marshal := .array .ordered, unmarshal := .array .ordered } t_crs_Point

/-- xmp/array.go:353 (methods: 420, 424, 434, 428, 355). -/
def t_xmp_StringList : Sk := .list chars!"xmp.StringList" { marshal := .array .ordered, unmarshal := .array .ordered, toText := true, ofText := true, zero := .plain } g_string

/-- models/crs/types.go:110-138. -/
def t_crs_CorrectionMask : Sk := st chars!"crs.CorrectionMask" {}
  [(atF chars!"crs:What", g_string), (atF chars!"crs:MaskValue", g_float32), (atF chars!"crs:Radius", g_float32),
   (atF chars!"crs:Flow", g_float32), (atF chars!"crs:CenterWeight", g_float32), (elF chars!"crs:Dabs", t_xmp_StringList),
   (atF chars!"crs:ZeroX", g_float32), (atF chars!"crs:ZeroY", g_float32), (atF chars!"crs:FullX", g_float32),
   (atF chars!"crs:FullY", g_float32), (atF chars!"crs:Top", g_float32), (atF chars!"crs:Left", g_float32),
   (atF chars!"crs:Bottom", g_float32), (atF chars!"crs:Right", g_float32), (atF chars!"crs:Angle", g_float32),
   (atF chars!"crs:Midpoint", g_float32), (atF chars!"crs:Roundness", g_float32), (atF chars!"crs:Feather", g_float32),
   (atF chars!"crs:Flipped", t_xmp_Bool), (atF chars!"crs:Version", g_int64), (atF chars!"crs:SizeX", g_float32),
   (atF chars!"crs:SizeY", g_float32), (atF chars!"crs:X", g_float32), (atF chars!"crs:Y", g_float32),
   (atF chars!"crs:Alpha", g_float32), (atF chars!"crs:CenterValue", g_float32), (atF chars!"crs:PerimeterValue", g_float32)]

/-- models/crs/types.go:140 (methods: 146, 150). -/
def t_crs_CorrectionMaskList : Sk := .list chars!"crs.CorrectionMaskList" { marshal := .array .ordered, unmarshal := .array .ordered } t_crs_CorrectionMask

/-- models/crs/types.go:71-94. -/
def t_crs_Correction : Sk := st chars!"crs.Correction" {}
  [(atF chars!"crs:What", g_string), (atF chars!"crs:CorrectionAmount", g_float32),
   (atF chars!"crs:CorrectionActive", t_xmp_Bool), (atF chars!"crs:LocalExposure", g_float32),
   (atF chars!"crs:LocalSaturation", g_float32), (atF chars!"crs:LocalContrast", g_float32),
   (atF chars!"crs:LocalBrightness", g_float32), (atF chars!"crs:LocalClarity", g_float32),
   (atF chars!"crs:LocalSharpness", g_float32), (atF chars!"crs:LocalToningHue", g_float32),
   (atF chars!"crs:LocalToningSaturation", g_float32), (atF chars!"crs:LocalExposure2012", g_float32),
   (atF chars!"crs:LocalContrast2012", g_float32), (atF chars!"crs:LocalHighlights2012", g_float32),
   (atF chars!"crs:LocalShadows2012", g_float32), (atF chars!"crs:LocalClarity2012", g_float32),
   (atF chars!"crs:LocalLuminanceNoise", g_float32), (atF chars!"crs:LocalMoire", g_float32),
   (atF chars!"crs:LocalDefringe", g_float32), (atF chars!"crs:LocalTemperature", g_float32),
   (atF chars!"crs:LocalTint", g_float32), (elF chars!"crs:CorrectionMasks", t_crs_CorrectionMaskList)]

/-- models/crs/types.go:96 (methods: 102, 106). -/
def t_crs_CorrectionList : Sk := .list chars!"crs.CorrectionList" { marshal := .array .ordered, unmarshal := .array .ordered } t_crs_Correction

/-- models/crs/types.go:154-164. -/
def t_crs_RetouchArea : Sk := st chars!"crs.RetouchArea" {}
  [(atF chars!"crs:SpotType", g_string), (atF chars!"crs:SourceState", g_string), (atF chars!"crs:Method", g_string),
   (atF chars!"crs:SourceX", g_float32), (atF chars!"crs:OffsetY", g_float32), (atF chars!"crs:Opacity", g_float32),
   (atF chars!"crs:Feather", g_float32), (atF chars!"crs:Seed", g_int64), (elF chars!"crs:Masks", t_crs_CorrectionMaskList)]

/-- models/crs/types.go:166 (methods: 172, 176). -/
def t_crs_RetouchAreaList : Sk := .list chars!"crs.RetouchAreaList" { marshal := .array .ordered, unmarshal := .array .ordered } t_crs_RetouchArea

/-- models/crs/model.go:52-250. -/
def t_crs_CameraRawInfo : Sk := st chars!"crs.CameraRawInfo" {}
  [(elF chars!"crs:AutoBrightness", t_xmp_Bool), (elF chars!"crs:AutoContrast", t_xmp_Bool),
   (elF chars!"crs:AutoExposure", t_xmp_Bool), (elF chars!"crs:AutoShadows", t_xmp_Bool), (elF chars!"crs:BlueHue", g_int64),
   (elF chars!"crs:BlueSaturation", g_int64), (elF chars!"crs:Brightness", g_int64),
   (elF chars!"crs:CameraProfile", g_string), (elF chars!"crs:ChromaticAberrationB", g_int64),
   (elF chars!"crs:ChromaticAberrationR", g_int64), (elF chars!"crs:ColorNoiseReduction", g_int64),
   (elF chars!"crs:Contrast", g_int64), (elF chars!"crs:CropTop", g_float32), (elF chars!"crs:CropLeft", g_float32),
   (elF chars!"crs:CropBottom", g_float32), (elF chars!"crs:CropRight", g_float32), (elF chars!"crs:CropAngle", g_float32),
   (elF chars!"crs:CropWidth", g_float32), (elF chars!"crs:CropHeight", g_float32),
   (elF chars!"crs:CropUnits", t_crs_CropUnits), (elF chars!"crs:Exposure", g_float32), (elF chars!"crs:GreenHue", g_int64),
   (elF chars!"crs:GreenSaturation", g_int64), (elF chars!"crs:HasCrop", t_xmp_Bool),
   (elF chars!"crs:HasSettings", t_xmp_Bool), (elF chars!"crs:LuminanceSmoothing", g_int64),
   (elF chars!"crs:RawFileName", g_string), (elF chars!"crs:RedHue", g_int64), (elF chars!"crs:RedSaturation", g_int64),
   (elF chars!"crs:Saturation", g_int64), (elF chars!"crs:Shadows", g_int64), (elF chars!"crs:ShadowTint", g_int64),
   (elF chars!"crs:Sharpness", g_int64), (elF chars!"crs:Temperature", g_int64), (elF chars!"crs:Tint", g_int64),
   (elF chars!"crs:ToneCurve", t_xmp_StringArray), (elF chars!"crs:ToneCurveName", t_crs_ToneCurve),
   (elF chars!"crs:Version", g_string), (elF chars!"crs:VignetteAmount", g_int64),
   (elF chars!"crs:VignetteMidpoint", g_int64), (elF chars!"crs:WhiteBalance", t_crs_WhiteBalance),
   (elF chars!"crs:AlreadyApplied", t_xmp_Bool), (elF chars!"crs:Dehaze", g_int), (elF chars!"crs:Converter", g_string),
   (elF chars!"crs:MoireFilter", g_string), (elF chars!"crs:Smoothness", g_int64),
   (elF chars!"crs:CameraProfileDigest", g_string), (elF chars!"crs:Clarity", g_int64),
   (elF chars!"crs:ConvertToGrayscale", t_xmp_Bool), (elF chars!"crs:Defringe", g_int64),
   (elF chars!"crs:FillLight", g_int64), (elF chars!"crs:HighlightRecovery", g_int64),
   (elF chars!"crs:HueAdjustmentAqua", g_int64), (elF chars!"crs:HueAdjustmentBlue", g_int64),
   (elF chars!"crs:HueAdjustmentGreen", g_int64), (elF chars!"crs:HueAdjustmentMagenta", g_int64),
   (elF chars!"crs:HueAdjustmentOrange", g_int64), (elF chars!"crs:HueAdjustmentPurple", g_int64),
   (elF chars!"crs:HueAdjustmentRed", g_int64), (elF chars!"crs:HueAdjustmentYellow", g_int64),
   (elF chars!"crs:IncrementalTemperature", g_int64), (elF chars!"crs:IncrementalTint", g_int64),
   (elF chars!"crs:LuminanceAdjustmentAqua", g_int64), (elF chars!"crs:LuminanceAdjustmentBlue", g_int64),
   (elF chars!"crs:LuminanceAdjustmentGreen", g_int64), (elF chars!"crs:LuminanceAdjustmentMagenta", g_int64),
   (elF chars!"crs:LuminanceAdjustmentOrange", g_int64), (elF chars!"crs:LuminanceAdjustmentPurple", g_int64),
   (elF chars!"crs:LuminanceAdjustmentRed", g_int64), (elF chars!"crs:LuminanceAdjustmentYellow", g_int64),
   (elF chars!"crs:ParametricDarks", g_int64), (elF chars!"crs:ParametricHighlights", g_int64),
   (elF chars!"crs:ParametricHighlightSplit", g_int64), (elF chars!"crs:ParametricLights", g_int64),
   (elF chars!"crs:ParametricMidtoneSplit", g_int64), (elF chars!"crs:ParametricShadows", g_int64),
   (elF chars!"crs:ParametricShadowSplit", g_int64), (elF chars!"crs:SaturationAdjustmentAqua", g_int64),
   (elF chars!"crs:SaturationAdjustmentBlue", g_int64), (elF chars!"crs:SaturationAdjustmentGreen", g_int64),
   (elF chars!"crs:SaturationAdjustmentMagenta", g_int64), (elF chars!"crs:SaturationAdjustmentOrange", g_int64),
   (elF chars!"crs:SaturationAdjustmentPurple", g_int64), (elF chars!"crs:SaturationAdjustmentRed", g_int64),
   (elF chars!"crs:SaturationAdjustmentYellow", g_int64), (elF chars!"crs:SharpenDetail", g_int64),
   (elF chars!"crs:SharpenEdgeMasking", g_int64), (elF chars!"crs:SharpenRadius", g_float32),
   (elF chars!"crs:SplitToningBalance", g_int64), (elF chars!"crs:SplitToningHighlightHue", g_int64),
   (elF chars!"crs:SplitToningHighlightSaturation", g_int64), (elF chars!"crs:SplitToningShadowHue", g_int64),
   (elF chars!"crs:SplitToningShadowSaturation", g_int64), (elF chars!"crs:Vibrance", g_int64),
   (elF chars!"crs:GrayMixerRed", g_int64), (elF chars!"crs:GrayMixerOrange", g_int64),
   (elF chars!"crs:GrayMixerYellow", g_int64), (elF chars!"crs:GrayMixerGreen", g_int64),
   (elF chars!"crs:GrayMixerAqua", g_int64), (elF chars!"crs:GrayMixerBlue", g_int64),
   (elF chars!"crs:GrayMixerPurple", g_int64), (elF chars!"crs:GrayMixerMagenta", g_int64),
   (elF chars!"crs:RetouchInfo", t_xmp_StringArray), (elF chars!"crs:RedEyeInfo", t_xmp_StringArray),
   (elF chars!"crs:CropUnit", g_int64), (elF chars!"crs:PostCropVignetteAmount", g_int64),
   (elF chars!"crs:PostCropVignetteMidpoint", g_int64), (elF chars!"crs:PostCropVignetteFeather", g_int64),
   (elF chars!"crs:PostCropVignetteRoundness", g_int64), (elF chars!"crs:PostCropVignetteStyle", g_int64),
   (elF chars!"crs:ProcessVersion", g_string), (elF chars!"crs:LensProfileEnable", g_int64),
   (elF chars!"crs:LensProfileSetup", g_string), (elF chars!"crs:LensProfileName", g_string),
   (elF chars!"crs:LensProfileFilename", g_string), (elF chars!"crs:LensProfileDigest", g_string),
   (elF chars!"crs:LensProfileDistortionScale", g_int64), (elF chars!"crs:LensProfileChromaticAberrationScale", g_int64),
   (elF chars!"crs:LensProfileVignettingScale", g_int64), (elF chars!"crs:LensManualDistortionAmount", g_int64),
   (elF chars!"crs:PerspectiveVertical", g_int64), (elF chars!"crs:PerspectiveHorizontal", g_int64),
   (elF chars!"crs:PerspectiveRotate", g_float32), (elF chars!"crs:PerspectiveScale", g_int64),
   (elF chars!"crs:CropConstrainToWarp", g_int64), (elF chars!"crs:LuminanceNoiseReductionDetail", g_int64),
   (elF chars!"crs:LuminanceNoiseReductionContrast", g_int64), (elF chars!"crs:ColorNoiseReductionDetail", g_int64),
   (elF chars!"crs:GrainAmount", g_int64), (elF chars!"crs:GrainSize", g_int64), (elF chars!"crs:GrainFrequency", g_int64),
   (elF chars!"crs:AutoLateralCA", g_int64), (elF chars!"crs:Exposure2012", g_float32),
   (elF chars!"crs:Contrast2012", g_int64), (elF chars!"crs:Highlights2012", g_int64),
   (elF chars!"crs:Shadows2012", g_int64), (elF chars!"crs:Whites2012", g_int64), (elF chars!"crs:Blacks2012", g_int64),
   (elF chars!"crs:Clarity2012", g_int64), (elF chars!"crs:PostCropVignetteHighlightContrast", g_int64),
   (elF chars!"crs:ToneCurveName2012", t_crs_ToneCurve), (elF chars!"crs:ToneCurveRed", t_crs_PointList),
   (elF chars!"crs:ToneCurveGreen", t_crs_PointList), (elF chars!"crs:ToneCurveBlue", t_crs_PointList),
   (elF chars!"crs:ToneCurvePV2012", t_crs_PointList), (elF chars!"crs:ToneCurvePV2012Red", t_crs_PointList),
   (elF chars!"crs:ToneCurvePV2012Green", t_crs_PointList), (elF chars!"crs:ToneCurvePV2012Blue", t_crs_PointList),
   (elF chars!"crs:ToneMapStrength", g_int), (elF chars!"crs:DefringePurpleAmount", g_int64),
   (elF chars!"crs:DefringePurpleHueLo", g_int64), (elF chars!"crs:DefringePurpleHueHi", g_int64),
   (elF chars!"crs:DefringeGreenAmount", g_int64), (elF chars!"crs:DefringeGreenHueLo", g_int64),
   (elF chars!"crs:DefringeGreenHueHi", g_int64), (elF chars!"crs:AutoWhiteVersion", g_int64),
   (elF chars!"crs:ColorNoiseReductionSmoothness", g_int64), (elF chars!"crs:PerspectiveAspect", g_int64),
   (elF chars!"crs:PerspectiveUpright", g_int64), (elF chars!"crs:UprightVersion", g_int64),
   (elF chars!"crs:UprightCenterMode", g_int64), (elF chars!"crs:UprightCenterNormX", g_float32),
   (elF chars!"crs:UprightCenterNormY", g_float32), (elF chars!"crs:UprightFocalMode", g_int64),
   (elF chars!"crs:UprightFocalLength35mm", g_float32), (elF chars!"crs:UprightPreview", t_xmp_Bool),
   (elF chars!"crs:UprightTransformCount", g_int64), (elF chars!"crs:UprightDependentDigest", g_string),
   (elF chars!"crs:UprightTransform_0", g_string), (elF chars!"crs:UprightTransform_1", g_string),
   (elF chars!"crs:UprightTransform_2", g_string), (elF chars!"crs:UprightTransform_3", g_string),
   (elF chars!"crs:UprightTransform_4", g_string), (elF chars!"crs:LensProfileMatchKeyExifMake", g_string),
   (elF chars!"crs:LensProfileMatchKeyExifModel", g_string), (elF chars!"crs:LensProfileMatchKeyCameraModelName", g_string),
   (elF chars!"crs:LensProfileMatchKeyLensInfo", g_string), (elF chars!"crs:LensProfileMatchKeyLensID", g_string),
   (elF chars!"crs:LensProfileMatchKeyLensName", g_string), (elF chars!"crs:LensProfileMatchKeyIsRaw", t_xmp_Bool),
   (elF chars!"crs:LensProfileMatchKeySensorFormatFactor", g_float32), (elF chars!"crs:DefaultAutoTone", t_xmp_Bool),
   (elF chars!"crs:DefaultAutoGray", t_xmp_Bool), (elF chars!"crs:DefaultsSpecificToSerial", t_xmp_Bool),
   (elF chars!"crs:DefaultsSpecificToISO", t_xmp_Bool), (elF chars!"crs:DNGIgnoreSidecars", t_xmp_Bool),
   (elF chars!"crs:NegativeCachePath", g_string), (elF chars!"crs:NegativeCacheMaximumSize", g_float32),
   (elF chars!"crs:NegativeCacheLargePreviewSize", g_int64), (elF chars!"crs:JPEGHandling", g_string),
   (elF chars!"crs:TIFFHandling", g_string), (elF chars!"crs:GradientBasedCorrections", t_crs_CorrectionList),
   (elF chars!"crs:CircularGradientBasedCorrections", t_crs_CorrectionList),
   (elF chars!"crs:PaintBasedCorrections", t_crs_CorrectionList), (elF chars!"crs:RetouchAreas", t_crs_RetouchAreaList)]

/-- xmp/xmp_types.go:89 (methods: 115, 203, 111). -/
def t_xmp_Date : Sk := .leaf chars!"xmp.Date" { toText := true, ofText := true, zero := .own } .time

/-- xmp/xmp_types.go:216 (methods: 222, 226).  Simplified: one text instead of an array is refused here; the method reads it as
a list of one date (see `datesUnmarshal` and `dates_typed`). -/
def t_xmp_DateList : Sk := .list chars!"xmp.DateList" { marshal := .array .ordered, unmarshal := .array .ordered } t_xmp_Date

/-- xmp/array.go:46-50 (methods: 52). -/
def t_xmp_AltItem : Sk := st chars!"xmp.AltItem" { ofText := true }
  [(elF chars!"Value", g_string), (elF chars!"xml:lang", g_string)]

/-- xmp/array.go:66 (methods: 220, 224, 68). -/
def t_xmp_AltString : Sk := .list chars!"xmp.AltString" { marshal := .alt, unmarshal := .alt, zero := .plain } t_xmp_AltItem

/-- models/dc/types.go:40 (methods: 53, 57).  Simplified: one text instead of an array is refused here; the method reads it as
a list of one text (see `localesUnmarshal` and `locales_typed`). -/
def t_dc_LocaleArray : Sk := .list chars!"dc.LocaleArray" { marshal := .array .unordered, unmarshal := .array .unordered } g_string

/-- models/dc/model.go:54-70. -/
def t_dc_DublinCore : Sk := st chars!"dc.DublinCore" {}
  [(elF chars!"dc:contributor", t_xmp_StringArray), (elF chars!"dc:coverage", g_string),
   (elF chars!"dc:creator", t_xmp_StringList), (elF chars!"dc:date", t_xmp_DateList),
   (elF chars!"dc:description", t_xmp_AltString), (elF chars!"dc:format", g_string), (elF chars!"dc:identifier", g_string),
   (elF chars!"dc:language", t_dc_LocaleArray), (elF chars!"dc:publisher", t_xmp_StringArray),
   (elF chars!"dc:relation", t_xmp_StringArray), (elF chars!"dc:rights", t_xmp_AltString), (elF chars!"dc:source", g_string),
   (elF chars!"dc:subject", t_xmp_StringArray), (elF chars!"dc:title", t_xmp_AltString),
   (elF chars!"dc:type", t_xmp_StringArray)]

/-- models/digikam/enum.go:5. -/
def t_digikam_ColorLabel : Sk := .leaf chars!"digikam.ColorLabel" {} .str

/-- models/digikam/enum.go:20. -/
def t_digikam_PickLabel : Sk := .leaf chars!"digikam.PickLabel" {} .str

/-- models/digikam/model.go:38-47. -/
def t_digikam_Digikam : Sk := st chars!"digikam.Digikam" {}
  [(elF chars!"digiKam:TagsList", t_xmp_StringList), (elF chars!"digiKam:CaptionsAutorNames", t_xmp_AltString),
   (elF chars!"digiKam:CaptionsDateTimeStamps", t_xmp_AltString), (elF chars!"digiKam:ImageHistory", g_string),
   (elF chars!"digiKam:ImageUniqueID", g_string), (elF chars!"digiKam:LensCorrectionSettings", g_string),
   (elF chars!"digiKam:ColorLabel", t_digikam_ColorLabel), (elF chars!"digiKam:PickLabel", t_digikam_PickLabel)]

/-- models/dji/dji.go:91-104. -/
def t_dji_DJI : Sk := st chars!"dji.DJI" {}
  [(elF chars!"drone-dji:AbsoluteAltitude", g_float32), (elF chars!"drone-dji:FlightPitchDegree", g_float32),
   (elF chars!"drone-dji:FlightRollDegree", g_float32), (elF chars!"drone-dji:FlightYawDegree", g_float32),
   (elF chars!"drone-dji:GimbalPitchDegree", g_float32), (elF chars!"drone-dji:GimbalRollDegree", g_float32),
   (elF chars!"drone-dji:GimbalYawDegree", g_float32), (elF chars!"drone-dji:RelativeAltitude", g_float32),
   (elF chars!"drone-dji:SpeedX", g_float32), (elF chars!"drone-dji:SpeedY", g_float32),
   (elF chars!"drone-dji:SpeedZ", g_float32), (elF chars!"tiff:Model", g_string)]

/-- xmp/array.go:315 (methods: 343, 347, 317). -/
def t_xmp_IntList : Sk := .list chars!"xmp.IntList" { marshal := .array .ordered, unmarshal := .array .ordered, zero := .plain } g_int

/-- models/tiff/enum.go:20. -/
def t_tiff_CompressionType : Sk := .leaf chars!"tiff.CompressionType" {} (.int 64)

/-- models/exif/types.go:63 (methods: 84, 77, 104, 69). -/
def t_exif_Date : Sk := .leaf chars!"exif.Date" { marshal := .text, toText := true, ofText := true, zero := .own } .time

/-- models/tiff/enum.go:46. -/
def t_tiff_OrientationType : Sk := .leaf chars!"tiff.OrientationType" {} (.int 64)

/-- models/tiff/enum.go:27. -/
def t_tiff_ColorModel : Sk := .leaf chars!"tiff.ColorModel" {} (.int 64)

/-- models/tiff/enum.go:59. -/
def t_tiff_PlanarType : Sk := .leaf chars!"tiff.PlanarType" {} (.int 64)

/-- xmp/xmp_types.go:504-507 (methods: 535, 568, 516). -/
def t_xmp_Rational : Sk := st chars!"xmp.Rational" { toText := true, ofText := true, zero := .own }
  [(elF chars!"Num", g_int64), (elF chars!"Den", g_int64)]

/-- xmp/xmp_types.go:602 (methods: 613, 620). -/
def t_xmp_RationalArray : Sk := .list chars!"xmp.RationalArray" { marshal := .array .ordered, unmarshal := .array .ordered } t_xmp_Rational

/-- models/tiff/enum.go:73. -/
def t_tiff_ResolutionUnit : Sk := .leaf chars!"tiff.ResolutionUnit" {} (.int 64)

/-- xmp/xmp_types.go:296 (methods: 298). -/
def t_xmp_AgentName : Sk := .leaf chars!"xmp.AgentName" { zero := .plain } .str

/-- models/tiff/enum.go:66. -/
def t_tiff_YCbCrPosition : Sk := .leaf chars!"tiff.YCbCrPosition" {} (.int 64)

/-- models/tiff/types.go:21 (methods: 58, 62, 50). -/
def t_tiff_YCbCrSubSampling : Sk := .list chars!"tiff.YCbCrSubSampling" { marshal := .array .ordered, unmarshal := .array .ordered, zero := .own } g_int

/-- models/exif/enum.go:19. -/
def t_exif_ColorSpace : Sk := .leaf chars!"exif.ColorSpace" {} (.int 64)

/-- models/exif/enum.go:26. -/
def t_exif_Component : Sk := .leaf chars!"exif.Component" {} (.int 64)

/-- models/exif/types.go:137 (methods: 151, 155). -/
def t_exif_ComponentArray : Sk := .list chars!"exif.ComponentArray" { marshal := .array .ordered, unmarshal := .array .ordered } t_exif_Component

/-- models/exif/types.go:32 (methods: 42, 46). -/
def t_exif_ByteArray : Sk := .leaf chars!"exif.ByteArray" { toText := true, ofText := true } .bytes

/-- models/exif/enum.go:38. -/
def t_exif_ExposureProgram : Sk := .leaf chars!"exif.ExposureProgram" {} (.int 64)

/-- models/exif/types.go:159-164 (methods: 206, 177, 166). -/
def t_exif_OECF : Sk := st chars!"exif.OECF" { marshal := .fields, ofText := true, zero := .own }
  [(elF chars!"exif:Columns", g_int), (elF chars!"exif:Rows", g_int), (elF chars!"exif:Names", t_xmp_StringArray),
   (elF chars!"exif:Values", t_xmp_RationalArray)]

/-- models/exif/enum.go:66. -/
def t_exif_MeteringMode : Sk := .leaf chars!"exif.MeteringMode" {} (.int 64)

/-- models/exif/enum.go:79. -/
def t_exif_LightSource : Sk := .leaf chars!"exif.LightSource" {} (.int 64)

/-- models/exif/enum.go:209. -/
def t_exif_FlashMode : Sk := .leaf chars!"exif.FlashMode" {} (.int 64)

/-- models/exif/enum.go:218. -/
def t_exif_FlashReturnMode : Sk := .leaf chars!"exif.FlashReturnMode" {} (.int 64)

/-- models/exif/types.go:309-315 (methods: 337, 345, 321, 317). -/
def t_exif_Flash : Sk := st chars!"exif.Flash" { marshal := .fields, unmarshal := .fields, ofText := true, zero := .own }
  [(aeF chars!"exif:Fired", t_xmp_Bool), (aeF chars!"exif:Function", t_xmp_Bool), (aeF chars!"exif:Mode", t_exif_FlashMode),
   (aeF chars!"exif:RedEyeMode", t_xmp_Bool), (aeF chars!"exif:Return", t_exif_FlashReturnMode)]

/-- models/exif/enum.go:106. -/
def t_exif_SensingMode : Sk := .leaf chars!"exif.SensingMode" {} (.int 64)

/-- models/exif/enum.go:118. -/
def t_exif_FileSourceType : Sk := .leaf chars!"exif.FileSourceType" {} (.int 64)

/-- models/exif/types.go:211-215 (methods: 254, 228, 217). -/
def t_exif_CFAPattern : Sk := st chars!"exif.CFAPattern" { marshal := .fields, ofText := true, zero := .own }
  [(elF chars!"exif:Columns", g_int), (elF chars!"exif:Rows", g_int), (elF chars!"exif:Values", t_exif_ByteArray)]

/-- models/exif/enum.go:127. -/
def t_exif_RenderMode : Sk := .leaf chars!"exif.RenderMode" {} (.int 64)

/-- models/exif/enum.go:134. -/
def t_exif_ExposureMode : Sk := .leaf chars!"exif.ExposureMode" {} (.int 64)

/-- models/exif/enum.go:142. -/
def t_exif_WhiteBalanceMode : Sk := .leaf chars!"exif.WhiteBalanceMode" {} (.int 64)

/-- models/exif/enum.go:149. -/
def t_exif_SceneCaptureType : Sk := .leaf chars!"exif.SceneCaptureType" {} (.int 64)

/-- models/exif/enum.go:158. -/
def t_exif_GainMode : Sk := .leaf chars!"exif.GainMode" {} (.int 64)

/-- models/exif/enum.go:168. -/
def t_exif_ContrastMode : Sk := .leaf chars!"exif.ContrastMode" {} (.int 64)

/-- models/exif/enum.go:176. -/
def t_exif_SaturationMode : Sk := .leaf chars!"exif.SaturationMode" {} (.int 64)

/-- models/exif/enum.go:184. -/
def t_exif_SharpnessMode : Sk := .leaf chars!"exif.SharpnessMode" {} (.int 64)

/-- models/exif/types.go:262-266 (methods: 301, 279, 268). -/
def t_exif_DeviceSettings : Sk := st chars!"exif.DeviceSettings" { marshal := .fields, ofText := true, zero := .own }
  [(elF chars!"exif:Columns", g_int), (elF chars!"exif:Rows", g_int), (elF chars!"exif:Values", t_xmp_StringArray)]

/-- models/exif/enum.go:192. -/
def t_exif_SubjectDistanceMode : Sk := .leaf chars!"exif.SubjectDistanceMode" {} (.int 64)

/-- xmp/xmp_types.go:632 (methods: 638). -/
def t_xmp_GPSCoord : Sk := .leaf chars!"xmp.GPSCoord" { zero := .own } .str

/-- models/exif/enum.go:53. -/
def t_exif_SensitivityType : Sk := .leaf chars!"exif.SensitivityType" {} (.int 64)

/-- models/exif/model.go:81-252. -/
def t_exif_ExifInfo : Sk := st chars!"exif.ExifInfo" {}
  [({ name := chars!"tiff:Artist", omitted := true }, g_string), (elF chars!"dc:creator", t_xmp_StringList),
   (elF chars!"tiff:BitsPerSample", t_xmp_IntList), (elF chars!"tiff:Compression", t_tiff_CompressionType),
   ({ name := chars!"tiff:Copyright", omitted := true }, g_string), (elF chars!"dc:rights", t_xmp_AltString),
   ({ name := chars!"tiff:DateTime", omitted := true }, t_exif_Date), (elF chars!"xmp:ModifyDate", t_xmp_Date),
   ({ name := chars!"tiff:ImageDescription", omitted := true }, g_string), (elF chars!"dc:description", t_xmp_AltString),
   (elF chars!"tiff:ImageLength", g_int), (elF chars!"tiff:ImageWidth", g_int), (elF chars!"tiff:Make", g_string),
   (elF chars!"tiff:Model", g_string), (elF chars!"tiff:Orientation", t_tiff_OrientationType),
   (elF chars!"tiff:PhotometricInterpretation", t_tiff_ColorModel),
   (elF chars!"tiff:PlanarConfiguration", t_tiff_PlanarType), (elF chars!"tiff:PrimaryChromaticities", t_xmp_RationalArray),
   (elF chars!"tiff:ReferenceBlackWhite", t_xmp_RationalArray), (elF chars!"tiff:ResolutionUnit", t_tiff_ResolutionUnit),
   (elF chars!"tiff:SamplesPerPixel", g_int), ({ name := chars!"tiff:Software", omitted := true }, g_string),
   (elF chars!"xmp:CreatorTool", t_xmp_AgentName), (elF chars!"tiff:TransferFunction", t_xmp_IntList),
   (elF chars!"tiff:WhitePoint", t_xmp_RationalArray), (elF chars!"tiff:XResolution", t_xmp_Rational),
   (elF chars!"tiff:YCbCrCoefficients", t_xmp_RationalArray), (elF chars!"tiff:YCbCrPositioning", t_tiff_YCbCrPosition),
   (elF chars!"tiff:YCbCrSubSampling", t_tiff_YCbCrSubSampling), (elF chars!"tiff:YResolution", t_xmp_Rational),
   (elF chars!"exif:ExifVersion", g_string), (elF chars!"exif:FlashpixVersion", g_string),
   (emF chars!"exif:ColorSpace", t_exif_ColorSpace), (elF chars!"exif:ComponentsConfiguration", t_exif_ComponentArray),
   (elF chars!"exif:CompressedBitsPerPixel", t_xmp_Rational), (elF chars!"exif:PixelXDimension", g_int),
   (elF chars!"exif:PixelYDimension", g_int), ({ name := chars!"exif:MakerNote", omitted := true }, t_exif_ByteArray),
   (elF chars!"exif:UserComment", t_xmp_StringArray), (elF chars!"exif:RelatedSoundFile", g_string),
   ({ name := chars!"exif:DateTimeOriginal", omitted := true }, t_exif_Date),
   (elF chars!"photoshop:DateCreated", t_xmp_Date), (elF chars!"exif:DateTimeDigitized", t_xmp_Date),
   ({ name := chars!"exif:SubSecTime", omitted := true }, g_string),
   ({ name := chars!"exif:SubSecTimeOriginal", omitted := true }, g_string),
   ({ name := chars!"exif:SubSecTimeDigitized", omitted := true }, g_string),
   (elF chars!"exif:ExposureTime", t_xmp_Rational), (elF chars!"exif:FNumber", t_xmp_Rational),
   (emF chars!"exif:ExposureProgram", t_exif_ExposureProgram), (elF chars!"exif:SpectralSensitivity", g_string),
   (elF chars!"exif:OECF", .ptr t_exif_OECF), (elF chars!"exif:ShutterSpeedValue", t_xmp_Rational),
   (elF chars!"exif:ApertureValue", t_xmp_Rational), (elF chars!"exif:BrightnessValue", t_xmp_Rational),
   (elF chars!"exif:ExposureBiasValue", t_xmp_Rational), (elF chars!"exif:MaxApertureValue", t_xmp_Rational),
   (elF chars!"exif:SubjectDistance", t_xmp_Rational), (emF chars!"exif:MeteringMode", t_exif_MeteringMode),
   (emF chars!"exif:LightSource", t_exif_LightSource), (elF chars!"exif:Flash", t_exif_Flash),
   (elF chars!"exif:FocalLength", t_xmp_Rational), (elF chars!"exif:SubjectArea", t_xmp_IntList),
   (elF chars!"exif:FlashEnergy", t_xmp_Rational), (elF chars!"exif:SpatialFrequencyResponse", .ptr t_exif_OECF),
   (elF chars!"exif:FocalPlaneXResolution", t_xmp_Rational), (elF chars!"exif:FocalPlaneYResolution", t_xmp_Rational),
   (emF chars!"exif:FocalPlaneResolutionUnit", t_tiff_ResolutionUnit), (elF chars!"exif:SubjectLocation", t_xmp_IntList),
   (elF chars!"exif:ExposureIndex", t_xmp_Rational), (emF chars!"exif:SensingMethod", t_exif_SensingMode),
   (emF chars!"exif:FileSource", t_exif_FileSourceType), (emF chars!"exif:SceneType", g_int),
   (elF chars!"exif:CFAPattern", .ptr t_exif_CFAPattern), (emF chars!"exif:CustomRendered", t_exif_RenderMode),
   (emF chars!"exif:ExposureMode", t_exif_ExposureMode), (emF chars!"exif:WhiteBalance", t_exif_WhiteBalanceMode),
   (elF chars!"exif:DigitalZoomRatio", t_xmp_Rational), (elF chars!"exif:FocalLengthIn35mmFilm", g_int),
   (emF chars!"exif:SceneCaptureType", t_exif_SceneCaptureType), (emF chars!"exif:GainControl", t_exif_GainMode),
   (emF chars!"exif:Contrast", t_exif_ContrastMode), (emF chars!"exif:Saturation", t_exif_SaturationMode),
   (emF chars!"exif:Sharpness", t_exif_SharpnessMode), (elF chars!"exif:DeviceSettingDescription", t_exif_DeviceSettings),
   (emF chars!"exif:SubjectDistanceRange", t_exif_SubjectDistanceMode), (elF chars!"exif:ImageUniqueID", g_string),
   (elF chars!"exif:GPSVersionID", g_string), (elF chars!"exif:GPSLatitude", t_xmp_GPSCoord),
   (elF chars!"exif:GPSLongitude", t_xmp_GPSCoord), (elF chars!"exif:GPSAltitudeRef", g_string),
   (elF chars!"exif:GPSAltitude", t_xmp_Rational), (elF chars!"exif:GPSTimeStamp", t_xmp_Date),
   (elF chars!"exif:GPSSatellites", g_string), (elF chars!"exif:GPSStatus", g_string),
   (elF chars!"exif:GPSMeasureMode", g_string), (elF chars!"exif:GPSDOP", t_xmp_Rational),
   (elF chars!"exif:GPSSpeedRef", g_string), (elF chars!"exif:GPSSpeed", t_xmp_Rational),
   (elF chars!"exif:GPSTrackRef", g_string), (elF chars!"exif:GPSTrack", t_xmp_Rational),
   (elF chars!"exif:GPSImgDirectionRef", g_string), (elF chars!"exif:GPSImgDirection", t_xmp_Rational),
   (elF chars!"exif:GPSMapDatum", g_string), (elF chars!"exif:GPSDestLatitude", t_xmp_GPSCoord),
   (elF chars!"exif:GPSDestLongitude", t_xmp_GPSCoord), (elF chars!"exif:GPSDestBearingRef", g_string),
   (elF chars!"exif:GPSDestBearing", t_xmp_Rational), (elF chars!"exif:GPSDestDistanceRef", g_string),
   (elF chars!"exif:GPSDestDistance", t_xmp_Rational), (elF chars!"exif:GPSProcessingMethod", g_string),
   (elF chars!"exif:GPSAreaInformation", g_string), (elF chars!"exif:GPSDifferential", g_int),
   (elF chars!"exif:GPSHPositioningError", t_xmp_Rational),
   ({ name := chars!"exif:NativeDigest", omitted := true }, g_string),
   ({ name := chars!"exif:ISOSpeedRatings", omitted := true }, t_xmp_IntList),
   (elF chars!"exif:RelatedImageFileFormat", g_string), (elF chars!"exif:RelatedImageWidth", g_int),
   (elF chars!"exif:RelatedImageLength", g_int), (elF chars!"exif:PhotographicSensitivity", g_int),
   (elF chars!"exif:SensitivityType", t_exif_SensitivityType), (elF chars!"exif:StandardOutputSensitivity", g_int),
   (elF chars!"exif:RecommendedExposureIndex", g_int), (elF chars!"exif:ISOSpeed", g_int),
   (elF chars!"exif:ISOSpeedLatitudeyyy", g_int), (elF chars!"exif:ISOSpeedLatitudezzz", g_int),
   (elF chars!"exif:CameraOwnerName", g_string), (elF chars!"exif:BodySerialNumber", g_string),
   (elF chars!"exif:LensSpecification", t_xmp_RationalArray), (elF chars!"exif:LensMake", g_string),
   (elF chars!"exif:LensModel", g_string), (elF chars!"exif:LensSerialNumber", g_string),
   (elF chars!"exif:Gamma", t_xmp_Rational), (elF chars!"exif:ApproximateFocusDistance", t_xmp_Rational),
   (elF chars!"exif:DistortionCorrectionAlreadyApplied", t_xmp_Bool), (elF chars!"exif:SerialNumber", g_string),
   (elF chars!"exif:LensInfo", g_string), (elF chars!"exif:LensDistortInfo", g_string), (elF chars!"exif:Lens", g_string),
   (elF chars!"exif:LensID", g_string), (elF chars!"exif:ImageNumber", g_int), (elF chars!"exif:IsMergedHDR", t_xmp_Bool),
   (elF chars!"exif:IsMergedPanorama", t_xmp_Bool),
   (elF chars!"exif:LateralChromaticAberrationCorrectionAlreadyApplied", t_xmp_Bool),
   (elF chars!"exif:VignetteCorrectionAlreadyApplied", t_xmp_Bool), (elF chars!"exif:FlashCompensation", t_xmp_Rational),
   (elF chars!"exif:Firmware", g_string), (elF chars!"exif:OwnerName", g_string)]

/-- models/exif/enum.go:201. -/
def t_exif_InteropMode : Sk := .leaf chars!"exif.InteropMode" {} .str

/-- models/exif/model.go:417-437. -/
def t_exif_ExifEXInfo : Sk := st chars!"exif.ExifEXInfo" {}
  [(elF chars!"exifEX:InteroperabilityIndex", t_exif_InteropMode), (elF chars!"exifEX:InteroperabilityVersion", g_string),
   (elF chars!"exifEX:RelatedImageFileFormat", g_string), (elF chars!"exifEX:RelatedImageWidth", g_int),
   (elF chars!"exifEX:RelatedImageLength", g_int), (elF chars!"exifEX:PhotographicSensitivity", g_int),
   (elF chars!"exifEX:SensitivityType", t_exif_SensitivityType), (elF chars!"exifEX:StandardOutputSensitivity", g_int),
   (elF chars!"exifEX:RecommendedExposureIndex", g_int), (elF chars!"exifEX:ISOSpeed", g_int),
   (elF chars!"exifEX:ISOSpeedLatitudeyyy", g_int), (elF chars!"exifEX:ISOSpeedLatitudezzz", g_int),
   (elF chars!"exifEX:CameraOwnerName", g_string), (elF chars!"exifEX:BodySerialNumber", g_string),
   (elF chars!"exifEX:LensSpecification", t_xmp_RationalArray), (elF chars!"exifEX:LensMake", g_string),
   (elF chars!"exifEX:LensModel", g_string), (elF chars!"exifEX:LensSerialNumber", g_string),
   (elF chars!"exifEX:Gamma", t_xmp_Rational)]

/-- models/exif/model.go:487-504. -/
def t_exif_ExifAuxInfo : Sk := st chars!"exif.ExifAuxInfo" {}
  [(elF chars!"aux:ApproximateFocusDistance", t_xmp_Rational),
   (elF chars!"aux:DistortionCorrectionAlreadyApplied", t_xmp_Bool), (elF chars!"aux:SerialNumber", g_string),
   (elF chars!"aux:LensInfo", g_string), (elF chars!"aux:LensDistortInfo", g_string), (elF chars!"aux:Lens", g_string),
   (elF chars!"aux:LensID", g_string), (elF chars!"aux:LensSerialNumber", g_string), (elF chars!"aux:ImageNumber", g_int),
   (elF chars!"aux:IsMergedHDR", t_xmp_Bool), (elF chars!"aux:IsMergedPanorama", t_xmp_Bool),
   (elF chars!"aux:LateralChromaticAberrationCorrectionAlreadyApplied", t_xmp_Bool),
   (elF chars!"aux:VignetteCorrectionAlreadyApplied", t_xmp_Bool), (elF chars!"aux:FlashCompensation", t_xmp_Rational),
   (elF chars!"aux:Firmware", g_string), (elF chars!"aux:OwnerName", g_string)]

/-- models/id3/types.go:532-537 (methods: 539). -/
def t_id3_AudioEncryption : Sk := st chars!"id3.AudioEncryption" { ofText := true }
  [(atF chars!"id3:owner", g_string), (atF chars!"id3:previewStart", g_int), (atF chars!"id3:previewLength", g_int),
   (elF chars!"id3:encryptionInfo", g_bytes)]

/-- models/id3/enum.go:492. -/
def t_id3_PictureType : Sk := .leaf chars!"id3.PictureType" {} (.uint 8)

/-- models/id3/types.go:436-441. -/
def t_id3_AttachedPicture : Sk := st chars!"id3.AttachedPicture" {}
  [(atF chars!"id3:mimetype", g_string), (atF chars!"id3:pictureType", t_id3_PictureType),
   (atF chars!"id3:description", g_string), (elF chars!"id3:image", g_bytes)]

/-- models/id3/types.go:443 (methods: 454, 458, 445). -/
def t_id3_AttachedPictureArray : Sk := .list chars!"id3.AttachedPictureArray" { marshal := .array .unordered, unmarshal := .array .unordered, ofText := true } t_id3_AttachedPicture

/-- models/id3/types.go:723-729 (methods: 731). -/
def t_id3_AudioSeekIndex : Sk := st chars!"id3.AudioSeekIndex" { ofText := true }
  [(atF chars!"id3:start", g_int64), (atF chars!"id3:length", g_int64), (atF chars!"id3:numberOfPoints", g_int),
   (atF chars!"id3:bitsPerPoint", g_byte), (elF chars!"id3:points", t_xmp_IntList)]

/-- models/id3/types.go:596-599. -/
def t_id3_Price : Sk := st chars!"id3.Price" {}
  [(elF chars!"Currency", g_string), (elF chars!"Amount", g_float32)]

/-- models/id3/types.go:601 (methods: 607, 611). -/
def t_id3_PriceList : Sk := .list chars!"id3.PriceList" { marshal := .array .unordered, unmarshal := .array .unordered } t_id3_Price

/-- models/id3/types.go:79 (methods: 99, 89, 85). -/
def t_id3_Date23 : Sk := .leaf chars!"id3.Date23" { toText := true, ofText := true, zero := .own } .time

/-- xmp/xmp_types.go:382 (methods: 388). -/
def t_xmp_Url : Sk := .leaf chars!"xmp.Url" { zero := .plain } .str

/-- models/id3/enum.go:518. -/
def t_id3_DeliveryMethod : Sk := .leaf chars!"id3.DeliveryMethod" {} (.uint 8)

/-- models/id3/types.go:580-589 (methods: 591). -/
def t_id3_Commercial : Sk := st chars!"id3.Commercial" { ofText := true }
  [(elF chars!"id3:prices", t_id3_PriceList), (atF chars!"id3:validUntil", t_id3_Date23),
   (elF chars!"id3:contactUrl", t_xmp_Url), (atF chars!"id3:receivedAs", t_id3_DeliveryMethod),
   (atF chars!"id3:sellerName", g_string), (atF chars!"id3:description", g_string), (atF chars!"id3:logoMimetype", g_string),
   (elF chars!"id3:logoImage", g_bytes)]

/-- models/id3/types.go:617-621. -/
def t_id3_EncryptionMethod : Sk := st chars!"id3.EncryptionMethod" {}
  [(atF chars!"id3:ownerUrl", t_xmp_Url), (atF chars!"id3:method", g_byte), (elF chars!"id3:data", g_bytes)]

/-- models/id3/types.go:623 (methods: 634, 638, 625). -/
def t_id3_EncryptionMethodArray : Sk := .list chars!"id3.EncryptionMethodArray" { marshal := .array .unordered, unmarshal := .array .unordered, ofText := true } t_id3_EncryptionMethod

/-- models/id3/enum.go:482. -/
def t_id3_EqualizationMethod : Sk := .leaf chars!"id3.EqualizationMethod" {} (.uint 8)

/-- models/id3/types.go:396-399. -/
def t_id3_AdjustmentPoint : Sk := st chars!"id3.AdjustmentPoint" {}
  [(atF chars!"id3:frequency", g_int), (atF chars!"id3:adjust", g_float32)]

/-- models/id3/types.go:401 (methods: 407, 411). -/
def t_id3_AdjustmentPointList : Sk := .list chars!"id3.AdjustmentPointList" { marshal := .array .ordered, unmarshal := .array .ordered } t_id3_AdjustmentPoint

/-- models/id3/types.go:371-375. -/
def t_id3_Equalization : Sk := st chars!"id3.Equalization" {}
  [(atF chars!"id3:method", t_id3_EqualizationMethod), (atF chars!"id3:id", g_string),
   (elF chars!"id3:points", t_id3_AdjustmentPointList)]

/-- models/id3/types.go:377 (methods: 388, 392, 379). -/
def t_id3_EqualizationList : Sk := .list chars!"id3.EqualizationList" { marshal := .array .unordered, unmarshal := .array .unordered, ofText := true } t_id3_Equalization

/-- models/id3/enum.go:17. -/
def t_id3_MarkerType : Sk := .leaf chars!"id3.MarkerType" {} (.uint 8)

/-- models/id3/enum.go:47. -/
def t_id3_UnitType : Sk := .leaf chars!"id3.UnitType" {} (.uint 8)

/-- models/id3/types.go:231-235. -/
def t_id3_Marker : Sk := st chars!"id3.Marker" {}
  [(atF chars!"id3:type", t_id3_MarkerType), (atF chars!"id3:timestamp", g_int64), (atF chars!"id3:unit", t_id3_UnitType)]

/-- models/id3/types.go:237 (methods: 248, 252, 239). -/
def t_id3_MarkerList : Sk := .list chars!"id3.MarkerList" { marshal := .array .ordered, unmarshal := .array .ordered, ofText := true } t_id3_Marker

/-- models/id3/types.go:464-469. -/
def t_id3_EncapsulatedObject : Sk := st chars!"id3.EncapsulatedObject" {}
  [(atF chars!"id3:mimetype", g_string), (atF chars!"id3:filename", g_string), (atF chars!"id3:description", g_string),
   (elF chars!"id3:data", g_bytes)]

/-- models/id3/types.go:471 (methods: 482, 486, 473). -/
def t_id3_EncapsulatedObjectArray : Sk := .list chars!"id3.EncapsulatedObjectArray" { marshal := .array .unordered, unmarshal := .array .unordered, ofText := true } t_id3_EncapsulatedObject

/-- models/id3/types.go:644-648. -/
def t_id3_Group : Sk := st chars!"id3.Group" {}
  [(atF chars!"id3:ownerUrl", t_xmp_Url), (atF chars!"id3:symbol", g_byte), (elF chars!"id3:data", g_bytes)]

/-- models/id3/types.go:650 (methods: 661, 665, 652). -/
def t_id3_GroupArray : Sk := .list chars!"id3.GroupArray" { marshal := .array .unordered, unmarshal := .array .unordered, ofText := true } t_id3_Group

/-- models/id3/types.go:546-550. -/
def t_id3_Link : Sk := st chars!"id3.Link" {}
  [(atF chars!"id3:linkedId", g_string), (atF chars!"id3:url", g_string), (elF chars!"id3:extra", t_xmp_StringList)]

/-- models/id3/types.go:552 (methods: 563, 567, 554). -/
def t_id3_LinkArray : Sk := .list chars!"id3.LinkArray" { marshal := .array .unordered, unmarshal := .array .unordered, ofText := true } t_id3_Link

/-- models/id3/types.go:218-223 (methods: 225). -/
def t_id3_Owner : Sk := st chars!"id3.Owner" { ofText := true }
  [(elF chars!"id3:currency", g_string), (elF chars!"id3:price", g_float32), (elF chars!"id3:purchaseDate", t_xmp_Date),
   (elF chars!"id3:seller", g_string)]

/-- models/id3/types.go:671-674. -/
def t_id3_PrivateData : Sk := st chars!"id3.PrivateData" {}
  [(atF chars!"id3:owner", g_string), (elF chars!"id3:data", g_bytes)]

/-- models/id3/types.go:676 (methods: 687, 691, 678). -/
def t_id3_PrivateDataArray : Sk := .list chars!"id3.PrivateDataArray" { marshal := .array .unordered, unmarshal := .array .unordered, ofText := true } t_id3_PrivateData

/-- models/id3/types.go:492-496. -/
def t_id3_Popularimeter : Sk := st chars!"id3.Popularimeter" {}
  [(atF chars!"id3:email", g_string), (atF chars!"id3:rating", g_byte), (atF chars!"id3:counter", g_int64)]

/-- models/id3/types.go:498 (methods: 509, 513, 500). -/
def t_id3_PopularimeterArray : Sk := .list chars!"id3.PopularimeterArray" { marshal := .array .unordered, unmarshal := .array .unordered, ofText := true } t_id3_Popularimeter

/-- models/id3/enum.go:54. -/
def t_id3_PositionType : Sk := .leaf chars!"id3.PositionType" {} (.uint 8)

/-- models/id3/types.go:573-576. -/
def t_id3_PositionSync : Sk := st chars!"id3.PositionSync" {}
  [(atF chars!"id3:unit", t_id3_PositionType), (atF chars!"id3:position", g_int64)]

/-- models/id3/types.go:519-523 (methods: 525). -/
def t_id3_BufferSize : Sk := st chars!"id3.BufferSize" { ofText := true }
  [(atF chars!"id3:bufferSize", g_int64), (atF chars!"id3:flag", g_byte), (atF chars!"id3:next", g_int64)]

/-- models/id3/enum.go:468. -/
def t_id3_ChannelType : Sk := .leaf chars!"id3.ChannelType" {} (.uint 8)

/-- models/id3/types.go:343-348. -/
def t_id3_VolumeAdjust : Sk := st chars!"id3.VolumeAdjust" {}
  [(atF chars!"id3:channel", t_id3_ChannelType), (atF chars!"id3:adjust", g_float32), (atF chars!"id3:bits", g_byte),
   (atF chars!"id3:peak", g_float32)]

/-- models/id3/types.go:350 (methods: 361, 365, 352). -/
def t_id3_VolumeAdjustArray : Sk := .list chars!"id3.VolumeAdjustArray" { marshal := .array .unordered, unmarshal := .array .unordered, ofText := true } t_id3_VolumeAdjust

/-- models/id3/types.go:416-427 (methods: 429). -/
def t_id3_Reverb : Sk := st chars!"id3.Reverb" { ofText := true }
  [(elF chars!"id3:reverbLeftMs", g_int), (elF chars!"id3:reverbRightMs", g_int),
   (elF chars!"id3:reverbBouncesLeft", g_byte), (elF chars!"id3:reverbBouncesRight", g_byte),
   (elF chars!"id3:reverbFeedbackLtoL", g_byte), (elF chars!"id3:reverbFeedbackLToR", g_byte),
   (elF chars!"id3:reverbFeedbackRtoR", g_byte), (elF chars!"id3:reverbFeedbackRtoL", g_byte),
   (elF chars!"id3:premixLtoR", g_byte), (elF chars!"id3:premixRtoL", g_byte)]

/-- models/id3/types.go:697-700. -/
def t_id3_Signature : Sk := st chars!"id3.Signature" {}
  [(atF chars!"id3:groupSymbol", g_byte), (elF chars!"id3:signature", g_bytes)]

/-- models/id3/types.go:702 (methods: 713, 717, 704). -/
def t_id3_SignatureArray : Sk := .list chars!"id3.SignatureArray" { marshal := .array .unordered, unmarshal := .array .unordered, ofText := true } t_id3_Signature

/-- models/id3/enum.go:454. -/
def t_id3_LyricsType : Sk := .leaf chars!"id3.LyricsType" {} (.uint 8)

/-- models/id3/types.go:292-295. -/
def t_id3_TimedText : Sk := st chars!"id3.TimedText" {}
  [(atF chars!"id3:text", g_string), (atF chars!"id3:timestamp", g_int64)]

/-- models/id3/types.go:297 (methods: 303, 307). -/
def t_id3_TimedTextList : Sk := .list chars!"id3.TimedTextList" { marshal := .array .ordered, unmarshal := .array .ordered } t_id3_TimedText

/-- models/id3/types.go:258-263. -/
def t_id3_TimedLyrics : Sk := st chars!"id3.TimedLyrics" {}
  [(atF chars!"id3:lang", g_string), (atF chars!"id3:type", t_id3_LyricsType), (atF chars!"id3:unit", t_id3_PositionType),
   (atF chars!"id3:lyrics", t_id3_TimedTextList)]

/-- models/id3/types.go:265 (methods: 271, 275, 287). -/
def t_id3_TimedLyricsArray : Sk := .list chars!"id3.TimedLyricsArray" { marshal := .array .unordered, unmarshal := .array .unordered, ofText := true } t_id3_TimedLyrics

/-- models/id3/types.go:144 (methods: 170, 146). -/
def t_id3_Genre : Sk := .list chars!"id3.Genre" { toText := true, ofText := true } g_string

/-- models/id3/types.go:52 (methods: 72, 62, 58). -/
def t_id3_Time23 : Sk := .leaf chars!"id3.Time23" { toText := true, ofText := true, zero := .own } .time

/-- models/id3/types.go:177-180 (methods: 206, 190, 186). -/
def t_id3_TrackNum : Sk := st chars!"id3.TrackNum" { toText := true, ofText := true, zero := .own }
  [(elF chars!"Track", g_int), (elF chars!"Total", g_int)]

/-- models/xmp_dm/types.go:258-261 (methods: 263). -/
def t_xmp_dm_CuePointParam : Sk := st chars!"xmp_dm.CuePointParam" { zero := .own }
  [(atF chars!"xmpDM:key", g_string), (atF chars!"xmpDM:value", g_string)]

/-- models/xmp_dm/types.go:267 (methods: 273, 277). -/
def t_xmp_dm_CuePointParamArray : Sk := .list chars!"xmp_dm.CuePointParamArray" { marshal := .array .ordered, unmarshal := .array .ordered } t_xmp_dm_CuePointParam

/-- models/xmp_dm/types.go:316-319 (methods: 368, 343, 339). -/
def t_xmp_dm_FrameRate : Sk := st chars!"xmp_dm.FrameRate" { toText := true, ofText := true, zero := .own }
  [(elF chars!"Rate", g_int64), (elF chars!"Base", g_int64)]

/-- models/xmp_dm/types.go:181-184 (methods: 242, 201, 186). -/
def t_xmp_dm_FrameCount : Sk := st chars!"xmp_dm.FrameCount" { toText := true, ofText := true, zero := .own }
  [(elF chars!"Count", g_int64), (elF chars!"Rate", t_xmp_dm_FrameRate)]

/-- models/xmp_dm/enum.go:251. -/
def t_xmp_dm_MarkerType : Sk := .leaf chars!"xmp_dm.MarkerType" {} .str

/-- models/xmp_dm/types.go:433. -/
def t_xmp_dm_MarkerTypeList : Sk := .list chars!"xmp_dm.MarkerTypeList" {} t_xmp_dm_MarkerType

/-- models/id3/types.go:738, fields models/xmp_dm/types.go:373-385. -/
def t_id3_Chapter : Sk := st chars!"id3.Chapter" {}
  [(atF chars!"xmpDM:comment", g_string), (elF chars!"xmpDM:cuePointParams", t_xmp_dm_CuePointParamArray),
   (atF chars!"xmpDM:cuePointType", g_string), (atF chars!"xmpDM:duration", t_xmp_dm_FrameCount),
   (elF chars!"xmpDM:location", t_xmp_Uri), (atF chars!"xmpDM:name", g_string), (atF chars!"xmpDM:probability", g_float64),
   (atF chars!"xmpDM:speaker", g_string), (atF chars!"xmpDM:startTime", t_xmp_dm_FrameCount),
   (atF chars!"xmpDM:target", g_string), (elF chars!"xmpDM:type", t_xmp_dm_MarkerTypeList)]

/-- models/id3/types.go:740 (methods: 751, 755, 742). -/
def t_id3_ChapterList : Sk := .list chars!"id3.ChapterList" { marshal := .array .ordered, unmarshal := .array .ordered, ofText := true } t_id3_Chapter

/-- models/id3/types.go:761-765. -/
def t_id3_TocEntry : Sk := st chars!"id3.TocEntry" {}
  [(elF chars!"id3:flags", g_int), (elF chars!"id3:idlist", t_xmp_StringList), (elF chars!"id3:info", g_string)]

/-- models/id3/types.go:767 (methods: 778, 782, 769). -/
def t_id3_TocEntryList : Sk := .list chars!"id3.TocEntryList" { marshal := .array .ordered, unmarshal := .array .ordered, ofText := true } t_id3_TocEntry

/-- models/id3/types.go:41. -/
def t_id3_Bool : Sk := .leaf chars!"id3.Bool" {} (.int 64)

/-- xmp/native.go:31 (methods: 33, 50).  Not described further. -/
def t_xmp_TagList : Sk := .leaf chars!"xmp.TagList" { marshal := .other, unmarshal := .other } .time

/-- models/id3/model.go:226-333. -/
def t_id3_ID3 : Sk := st chars!"id3.ID3" {}
  [(elF chars!"id3:audioEncryption", .ptr t_id3_AudioEncryption),
   (elF chars!"id3:attachedPicture", t_id3_AttachedPictureArray),
   ({ name := chars!"id3:audioSeekPointIndex", minVersion := ⟨2, 4, 0⟩ }, .ptr t_id3_AudioSeekIndex),
   (elF chars!"id3:comments", g_string), (elF chars!"id3:commercial", .ptr t_id3_Commercial),
   (elF chars!"id3:encryption", t_id3_EncryptionMethodArray),
   ({ name := chars!"id3:equalization_v23", maxVersion := ⟨2, 3, 0⟩ }, g_string),
   ({ name := chars!"id3:equalization", minVersion := ⟨2, 4, 0⟩ }, t_id3_EqualizationList),
   (elF chars!"id3:eventTimingCodes", t_id3_MarkerList),
   (elF chars!"id3:generalEncapsulatedObject", t_id3_EncapsulatedObjectArray),
   (elF chars!"id3:groupIdentifier", t_id3_GroupArray),
   ({ name := chars!"id3:involvedPeopleList_v23", maxVersion := ⟨2, 3, 0⟩ }, g_string),
   (elF chars!"id3:link", t_id3_LinkArray), (elF chars!"id3:musicCDIdentifier", g_bytes),
   (elF chars!"id3:mpegLocationLookupTable", g_bytes), (elF chars!"id3:ownership", .ptr t_id3_Owner),
   (elF chars!"id3:private", t_id3_PrivateDataArray), (elF chars!"id3:playCounter", g_int64),
   (elF chars!"id3:popularimeter", t_id3_PopularimeterArray),
   (elF chars!"id3:positionSynchronization", .ptr t_id3_PositionSync),
   (elF chars!"id3:recommendedBufferSize", .ptr t_id3_BufferSize),
   ({ name := chars!"id3:relativeVolumeAdjustment_v23", maxVersion := ⟨2, 3, 0⟩ }, g_string),
   ({ name := chars!"id3:relativeVolumeAdjustment", minVersion := ⟨2, 4, 0⟩ }, t_id3_VolumeAdjustArray),
   (elF chars!"id3:reverb", .ptr t_id3_Reverb), ({ name := chars!"id3:seek", minVersion := ⟨2, 4, 0⟩ }, g_int64),
   ({ name := chars!"id3:signature", minVersion := ⟨2, 4, 0⟩ }, t_id3_SignatureArray),
   (elF chars!"id3:synchronizedLyrics", t_id3_TimedLyricsArray), (elF chars!"id3:synchronizedTempoCodes", g_bytes),
   (elF chars!"id3:albumTitle", g_string), (elF chars!"id3:beatsPerMinute", g_int), (elF chars!"id3:composer", g_string),
   (elF chars!"id3:contentType", t_id3_Genre), (elF chars!"id3:copyright", g_string),
   ({ name := chars!"id3:date_v23", maxVersion := ⟨2, 3, 0⟩ }, t_id3_Date23),
   ({ name := chars!"id3:encodingTime", minVersion := ⟨2, 4, 0⟩ }, t_xmp_Date), (elF chars!"id3:playlistDelay", g_int64),
   ({ name := chars!"id3:originalReleaseTime", minVersion := ⟨2, 4, 0⟩ }, t_xmp_Date),
   ({ name := chars!"id3:recordingTime", minVersion := ⟨2, 4, 0⟩ }, t_xmp_Date),
   ({ name := chars!"id3:releaseTime", minVersion := ⟨2, 4, 0⟩ }, t_xmp_Date),
   ({ name := chars!"id3:taggingTime", minVersion := ⟨2, 4, 0⟩ }, t_xmp_Date), (elF chars!"id3:encodedBy", g_string),
   (elF chars!"id3:lyricist", g_string), (elF chars!"id3:fileType", g_string),
   ({ name := chars!"id3:time_v23", maxVersion := ⟨2, 3, 0⟩ }, t_id3_Time23),
   ({ name := chars!"id3:involvedPeopleList", minVersion := ⟨2, 4, 0⟩ }, g_string),
   (elF chars!"id3:contentGroupDescription", g_string), (elF chars!"id3:titleDescription", g_string),
   (elF chars!"id3:subTitle", g_string), (elF chars!"id3:initialKey", g_string), (elF chars!"id3:language", g_string),
   (elF chars!"id3:length", g_string), ({ name := chars!"id3:musicianCreditsList", minVersion := ⟨2, 4, 0⟩ }, g_string),
   (elF chars!"id3:mediaType", g_string), ({ name := chars!"id3:mood", minVersion := ⟨2, 4, 0⟩ }, g_string),
   (elF chars!"id3:originalAlbumTitle", g_string), (elF chars!"id3:originalFilename", g_string),
   (elF chars!"id3:originalLyricist", g_string), (elF chars!"id3:originalArtist", g_string),
   ({ name := chars!"id3:originalReleaseYear_v23", maxVersion := ⟨2, 3, 0⟩ }, g_int), (elF chars!"id3:fileOwner", g_string),
   (elF chars!"id3:leadPerformer", g_string), (elF chars!"id3:band", g_string), (elF chars!"id3:conductor", g_string),
   (elF chars!"id3:modifiedBy", g_string), (elF chars!"id3:partOfASet", t_id3_TrackNum),
   ({ name := chars!"id3:producedNotice", minVersion := ⟨2, 4, 0⟩ }, g_string), (elF chars!"id3:publisher", g_string),
   (elF chars!"id3:trackNumber", t_id3_TrackNum), (elF chars!"id3:recordingDates", g_string),
   (elF chars!"id3:internetRadioStationName", g_string), (elF chars!"id3:internetRadioStationOwner", g_string),
   ({ name := chars!"id3:size_v23", maxVersion := ⟨2, 3, 0⟩ }, g_string),
   ({ name := chars!"id3:albumSortOrder", minVersion := ⟨2, 4, 0⟩ }, g_string),
   ({ name := chars!"id3:performerSortOrder", minVersion := ⟨2, 4, 0⟩ }, g_string),
   ({ name := chars!"id3:titleSortOrder", minVersion := ⟨2, 4, 0⟩ }, g_string),
   (elF chars!"id3:internationalStandardRecordingCode", g_string), (elF chars!"id3:encodedWith", g_string),
   ({ name := chars!"id3:setSubtitle", minVersion := ⟨2, 4, 0⟩ }, g_string),
   ({ name := chars!"id3:year_v23", maxVersion := ⟨2, 3, 0⟩ }, g_int), (elF chars!"id3:userText", g_string),
   (elF chars!"id3:uniqueFileIdentifier", t_xmp_Uri), (elF chars!"id3:termsOfUse", t_xmp_StringList),
   (elF chars!"id3:unsynchronizedLyrics", t_xmp_StringList), (elF chars!"id3:commercialInformation", t_xmp_Url),
   (elF chars!"id3:copyrightInformation", t_xmp_Url), (elF chars!"id3:officialAudioFileWebpage", t_xmp_Url),
   (elF chars!"id3:officialArtistWebpage", t_xmp_Url), (elF chars!"id3:officialAudioSourceWebpage", t_xmp_Url),
   (elF chars!"id3:officialInternetRadioStationHomepage", t_xmp_Url), (elF chars!"id3:payment", t_xmp_Url),
   (elF chars!"id3:officialPublisherWebpage", t_xmp_Url), (elF chars!"id3:userURL", t_xmp_Url),
   (elF chars!"id3:accessibilityText", g_string), (elF chars!"id3:chapters", t_id3_ChapterList),
   (elF chars!"id3:tableOfContents", t_id3_TocEntryList), (elF chars!"id3:albumArtistSortOrder", g_string),
   (elF chars!"id3:composerSortOrder", g_string), (elF chars!"id3:isCompilation", t_id3_Bool),
   (elF chars!"id3:iTunesU", t_id3_Bool), (elF chars!"id3:isPodcast", t_id3_Bool),
   (elF chars!"id3:podcastDescription", g_string), (elF chars!"id3:podcastID", g_string),
   (elF chars!"id3:podcastURL", g_string), (elF chars!"id3:podcastKeywords", g_string),
   (elF chars!"id3:podcastCategory", g_string), (elF chars!"id3:extension", t_xmp_TagList)]

/-- models/itunes/enum.go:87. -/
def t_itunes_AppleStoreAccountType : Sk := .leaf chars!"itunes.AppleStoreAccountType" {} (.int 64)

/-- models/itunes/enum.go:71. -/
def t_itunes_RatingCode : Sk := .leaf chars!"itunes.RatingCode" {} (.int 64)

/-- models/itunes/enum.go:268. -/
def t_itunes_GenreCode : Sk := .leaf chars!"itunes.GenreCode" {} (.uint 8)

/-- models/itunes/enum.go:265. -/
def t_itunes_GenreID : Sk := .leaf chars!"itunes.GenreID" {} (.int 64)

/-- models/itunes/types.go:64. -/
def t_itunes_Bool : Sk := .leaf chars!"itunes.Bool" {} (.int 64)

/-- models/itunes/enum.go:80. -/
def t_itunes_PlayGapMode : Sk := .leaf chars!"itunes.PlayGapMode" {} (.int 64)

/-- models/itunes/enum.go:25. -/
def t_itunes_MediaType : Sk := .leaf chars!"itunes.MediaType" {} (.int 64)

/-- models/itunes/types.go:70-75 (methods: 116, 94, 77). -/
def t_itunes_ContentRating : Sk := st chars!"itunes.ContentRating" { toText := true, ofText := true, zero := .own }
  [(atF chars!"iTunes:Standard", g_string), (atF chars!"iTunes:Rating", g_string), (atF chars!"iTunes:Score", g_string),
   (atF chars!"iTunes:Reasons", g_string)]

/-- models/itunes/types.go:27-32 (methods: 37). -/
def t_itunes_SMPB : Sk := st chars!"itunes.SMPB" { ofText := true }
  [(atF chars!"iTunes:EncoderDelay", g_int64), (atF chars!"iTunes:EndPadding", g_int64),
   (atF chars!"iTunes:OriginalSampleCount", g_int64), (atF chars!"iTunes:EndOffset", g_int64)]

/-- models/itunes/movieinfo.go:40-45. -/
def t_itunes_AssetInfo : Sk := st chars!"itunes.AssetInfo" {}
  [(atF chars!"iTunes:FileSize", g_int64), (atF chars!"iTunes:Flavor", g_string),
   (atF chars!"iTunes:ScreenFormat", g_string), (atF chars!"iTunes:Soundtrack", g_string)]

/-- models/itunes/movieinfo.go:47-50. -/
def t_itunes_Person : Sk := st chars!"itunes.Person" {}
  [(atF chars!"iTunes:AdamID", g_string), (atF chars!"iTunes:Name", g_string)]

/-- models/itunes/movieinfo.go:52 (methods: 58, 62). -/
def t_itunes_PersonArray : Sk := .list chars!"itunes.PersonArray" { marshal := .array .unordered, unmarshal := .array .unordered } t_itunes_Person

/-- models/itunes/movieinfo.go:22-31. -/
def t_itunes_MovieInfo : Sk := st chars!"itunes.MovieInfo" {}
  [(atF chars!"iTunes:AssetInfo", .ptr t_itunes_AssetInfo), (atF chars!"iTunes:Studio", g_string),
   (elF chars!"iTunes:Cast", t_itunes_PersonArray), (elF chars!"iTunes:Directors", t_itunes_PersonArray),
   (elF chars!"iTunes:CoDirectors", t_itunes_PersonArray), (elF chars!"iTunes:Screenwriters", t_itunes_PersonArray),
   (elF chars!"iTunes:Producers", t_itunes_PersonArray), (elF chars!"iTunes:CopyWarning", g_string)]

/-- models/itunes/model.go:107-201. -/
def t_itunes_ITunesMetadata : Sk := st chars!"itunes.ITunesMetadata" {}
  [(elF chars!"iTunes:AccountKind", t_itunes_AppleStoreAccountType), (elF chars!"iTunes:Acknowledgement", g_string),
   (elF chars!"iTunes:Album", g_string), (elF chars!"iTunes:AlbumArtist", g_string), (elF chars!"iTunes:AppleID", g_string),
   (elF chars!"iTunes:Arranger", g_string), (elF chars!"iTunes:ArtDirector", g_string),
   (elF chars!"iTunes:Artist", g_string), (elF chars!"iTunes:ArtistID", g_string), (elF chars!"iTunes:Author", g_string),
   (elF chars!"iTunes:BeatsPerMin", g_int), (elF chars!"iTunes:Comment", g_string), (elF chars!"iTunes:Composer", g_string),
   (elF chars!"iTunes:Conductor", g_string), (elF chars!"iTunes:IsExplicit", t_itunes_RatingCode),
   (elF chars!"iTunes:Copyright", g_string), (elF chars!"iTunes:CoverArt", g_string),
   (elF chars!"iTunes:CoverUrl", t_xmp_Url), (elF chars!"iTunes:Credits", g_string),
   (elF chars!"iTunes:Description", g_string), (elF chars!"iTunes:Director", g_string),
   (elF chars!"iTunes:DiscNumber", t_xmp_Rational), (elF chars!"iTunes:Duration", g_int64),
   (elF chars!"iTunes:EncodedBy", g_string), (elF chars!"iTunes:EncodingTool", g_string), (elF chars!"iTunes:EQ", g_string),
   (elF chars!"iTunes:ExecProducer", g_string), (elF chars!"iTunes:GenreCode", t_itunes_GenreCode),
   (elF chars!"iTunes:GenreID", t_itunes_GenreID), (elF chars!"iTunes:GenreName", g_string),
   (elF chars!"iTunes:Grouping", g_string), (elF chars!"iTunes:IconUrl", t_xmp_Url), (elF chars!"iTunes:InfoUrl", t_xmp_Url),
   (elF chars!"iTunes:IsDiscCompilation", t_itunes_Bool), (elF chars!"iTunes:IsGaplessPlayback", t_itunes_PlayGapMode),
   (elF chars!"iTunes:IsHDVideo", t_itunes_Bool), (elF chars!"iTunes:IsiTunesU", g_string),
   (elF chars!"iTunes:IsPodcast", t_itunes_Bool), (elF chars!"iTunes:Keywords", g_string),
   (elF chars!"iTunes:LinerNotes", g_string), (elF chars!"iTunes:Lyrics", g_string),
   (elF chars!"iTunes:LyricsUrl", g_string), (elF chars!"iTunes:MediaType", t_itunes_MediaType),
   (elF chars!"iTunes:Narrator", g_string), (elF chars!"iTunes:OnlineExtras", g_string),
   (elF chars!"iTunes:OriginalArtist", g_string), (elF chars!"iTunes:Performer", g_string),
   (elF chars!"iTunes:PhonogramRights", g_string), (elF chars!"iTunes:PlaylistID", g_string),
   (elF chars!"iTunes:PodcastCategory", g_string), (elF chars!"iTunes:PodcastGuid", g_string),
   (elF chars!"iTunes:PodcastUrl", g_string), (elF chars!"iTunes:Producer", g_string),
   (elF chars!"iTunes:ProductID", g_string), (elF chars!"iTunes:Publisher", g_string),
   (elF chars!"iTunes:PurchaseDate", t_xmp_Date), (elF chars!"iTunes:RatingPercent", g_string),
   (elF chars!"iTunes:RecordCompany", g_string), (elF chars!"iTunes:ReleaseDate", t_xmp_Date),
   (elF chars!"iTunes:ShowEpisodeName", g_string), (elF chars!"iTunes:ShowEpisodeNum", g_int),
   (elF chars!"iTunes:ShowName", g_string), (elF chars!"iTunes:ShowSeasonNum", g_int),
   (elF chars!"iTunes:Soloist", g_string), (elF chars!"iTunes:SongID", g_string), (elF chars!"iTunes:SortAlbum", g_string),
   (elF chars!"iTunes:SortAlbumArtist", g_string), (elF chars!"iTunes:SortArtist", g_string),
   (elF chars!"iTunes:SortComposer", g_string), (elF chars!"iTunes:SortName", g_string),
   (elF chars!"iTunes:SortShow", g_string), (elF chars!"iTunes:SoundEngineer", g_string),
   (elF chars!"iTunes:StoreFrontID", g_string), (elF chars!"iTunes:Synopsis", g_string),
   (elF chars!"iTunes:Thanks", g_string), (elF chars!"iTunes:Title", g_string), (elF chars!"iTunes:ToolInfo", g_string),
   (elF chars!"iTunes:TrackNumber", g_int), (elF chars!"iTunes:TrackSubTitle", g_string),
   (elF chars!"iTunes:TVNetworkName", g_string), (elF chars!"iTunes:XID", g_string),
   (elF chars!"iTunes:ContentRating", .ptr t_itunes_ContentRating), (elF chars!"iTunes:SoundCheck", g_bytes),
   (elF chars!"iTunes:SMPB", .ptr t_itunes_SMPB), (elF chars!"iTunes:IsGaplessPlayback2", t_itunes_Bool),
   (elF chars!"iTunes:MovieInfo", .ptr t_itunes_MovieInfo), (elF chars!"iTunes:CDDBToc", g_string),
   (elF chars!"iTunes:CDDBTrackNumber", g_string), (elF chars!"iTunes:CDDBMediaID", g_string),
   (elF chars!"iTunes:EncodingParams", g_bytes), (elF chars!"iTunes:extension", t_xmp_TagList)]

/-- models/ixml/enum.go:22. -/
def t_ixml_TakeType : Sk := .leaf chars!"ixml.TakeType" {} .str

/-- models/ixml/enum.go:35 (methods: 95, 106). -/
def t_ixml_TakeTypeList : Sk := .list chars!"ixml.TakeTypeList" { toText := true, ofText := true } t_ixml_TakeType

/-- models/ixml/types.go:26 (methods: 32, 39). -/
def t_ixml_Bool : Sk := .leaf chars!"ixml.Bool" { toText := true, ofText := true } .bool

/-- models/ixml/enum.go:444. -/
def t_ixml_SyncPointType : Sk := .leaf chars!"ixml.SyncPointType" {} .str

/-- models/ixml/enum.go:451. -/
def t_ixml_SyncPointFunctionType : Sk := .leaf chars!"ixml.SyncPointFunctionType" {} .str

/-- models/ixml/types.go:51-59. -/
def t_ixml_SyncPoint : Sk := st chars!"ixml.SyncPoint" {}
  [(elF chars!"iXML:syncPointType", t_ixml_SyncPointType),
   (elF chars!"iXML:syncPointFunction", t_ixml_SyncPointFunctionType), (elF chars!"iXML:syncPointComment", g_string),
   (elF chars!"iXML:syncPointLow", g_int), (elF chars!"iXML:syncPointHigh", g_int),
   (elF chars!"iXML:syncPointEventDuration", g_int64)]

/-- models/ixml/types.go:61 (methods: 124, 128). -/
def t_ixml_SyncPointList : Sk := .list chars!"ixml.SyncPointList" { marshal := .array .ordered, unmarshal := .array .ordered } t_ixml_SyncPoint

/-- models/ixml/enum.go:415 (methods: 434). -/
def t_ixml_TimecodeFlag : Sk := .leaf chars!"ixml.TimecodeFlag" { ofText := true } .str

/-- models/ixml/types.go:132-145. -/
def t_ixml_Speed : Sk := st chars!"ixml.Speed" {}
  [(elF chars!"iXML:note", g_string), (elF chars!"iXML:masterSpeed", t_xmp_Rational),
   (elF chars!"iXML:currentSpeed", t_xmp_Rational), (elF chars!"iXML:timecodeRate", t_xmp_Rational),
   (elF chars!"iXML:timecodeFlag", t_ixml_TimecodeFlag), (elF chars!"iXML:fileSampleRate", t_xmp_Rational),
   (elF chars!"iXML:audioBitDepth", g_int), (elF chars!"iXML:digitizerSampleRate", g_int),
   (elF chars!"iXML:timestampSamplesSinceMidnightHI", g_int), (elF chars!"iXML:timestampSamplesSinceMidnightLO", g_int),
   (elF chars!"iXML:timestampSampleRate", g_int)]

/-- models/ixml/types.go:170-175. -/
def t_ixml_History : Sk := st chars!"ixml.History" {}
  [(elF chars!"iXML:originalFilename", g_string), (elF chars!"iXML:parentFilename", g_string),
   (elF chars!"iXML:parentUID", g_string)]

/-- models/ixml/types.go:177-183. -/
def t_ixml_FileSet : Sk := st chars!"ixml.FileSet" {}
  [(elF chars!"iXML:totalFiles", g_int), (elF chars!"iXML:familyUID", g_string), (elF chars!"iXML:familyName", g_string),
   (elF chars!"iXML:fileSetIndex", g_string)]

/-- models/ixml/enum.go:285. -/
def t_ixml_FunctionType : Sk := .leaf chars!"ixml.FunctionType" {} .str

/-- models/ixml/types.go:286-290. -/
def t_ixml_DefaultMix : Sk := st chars!"ixml.DefaultMix" {}
  [(elF chars!"iXML:level", g_string), (elF chars!"iXML:pan", g_string)]

/-- models/ixml/types.go:185-192. -/
def t_ixml_Track : Sk := st chars!"ixml.Track" {}
  [(elF chars!"iXML:channelIndex", g_int), (elF chars!"iXML:interleaveIndex", g_int), (elF chars!"iXML:name", g_string),
   (elF chars!"iXML:function", t_ixml_FunctionType), (elF chars!"iXML:defaultMix", t_ixml_DefaultMix)]

/-- models/ixml/types.go:194 (methods: 248, 252). -/
def t_ixml_TrackList : Sk := .list chars!"ixml.TrackList" { marshal := .array .ordered, unmarshal := .array .ordered } t_ixml_Track

/-- models/ixml/types.go:256-274. -/
def t_ixml_UserData : Sk := st chars!"ixml.UserData" {}
  [(elF chars!"iXML:comment", g_string), (elF chars!"iXML:fullTitle", g_string), (elF chars!"iXML:directorName", g_string),
   (elF chars!"iXML:productionName", g_string), (elF chars!"iXML:productionAddress", g_string),
   (elF chars!"iXML:productionEmail", g_string), (elF chars!"iXML:productionPhone", g_string),
   (elF chars!"iXML:productionNote", g_string), (elF chars!"iXML:soundMixerName", g_string),
   (elF chars!"iXML:soundMixerAddress", g_string), (elF chars!"iXML:soundMixerEmail", g_string),
   (elF chars!"iXML:soundMixerPhone", g_string), (elF chars!"iXML:soundMixerNote", g_string),
   (elF chars!"iXML:audioRecorderModel", g_string), (elF chars!"iXML:audioRecorderSerialNumber", g_string),
   (elF chars!"iXML:audioRecorderFirmware", g_string)]

/-- models/ixml/enum.go:121. -/
def t_ixml_LocationType : Sk := .leaf chars!"ixml.LocationType" {} .str

/-- models/ixml/enum.go:128 (methods: 160, 171). -/
def t_ixml_LocationTypeList : Sk := .list chars!"ixml.LocationTypeList" { toText := true, ofText := true } t_ixml_LocationType

/-- models/ixml/enum.go:195. -/
def t_ixml_LocationTime : Sk := .leaf chars!"ixml.LocationTime" {} .str

/-- models/ixml/enum.go:208 (methods: 252, 263). -/
def t_ixml_LocationTimeList : Sk := .list chars!"ixml.LocationTimeList" { toText := true, ofText := true } t_ixml_LocationTime

/-- models/ixml/types.go:276-283. -/
def t_ixml_Location : Sk := st chars!"ixml.Location" {}
  [(elF chars!"iXML:locationName", g_string), (elF chars!"iXML:locationGps", g_string),
   (elF chars!"iXML:locationAltitude", g_string), (elF chars!"iXML:locationType", t_ixml_LocationTypeList),
   (elF chars!"iXML:locationTime", t_ixml_LocationTimeList)]

/-- xmp/xmp_ext.go:162 (methods: 181, 192).  Not described further. -/
def t_xmp_NamedExtensionArray : Sk := .leaf chars!"xmp.NamedExtensionArray" { marshal := .other, unmarshal := .other } .time

/-- models/ixml/model.go:71-95 (methods: 165). -/
def t_ixml_IXML : Sk := st chars!"ixml.IXML" { ofText := true }
  [(elF chars!"iXML:version", g_string), (elF chars!"iXML:project", g_string), (elF chars!"iXML:sceneName", g_string),
   (elF chars!"iXML:soundRoll", g_string), (elF chars!"iXML:take", g_int), (elF chars!"iXML:takeType", t_ixml_TakeTypeList),
   (elF chars!"iXML:circled", t_ixml_Bool), (elF chars!"iXML:fileUid", g_string), (elF chars!"iXML:userBits", g_string),
   (elF chars!"iXML:note", g_string), (elF chars!"iXML:syncPoints", t_ixml_SyncPointList),
   (elF chars!"iXML:speed", .ptr t_ixml_Speed), (elF chars!"iXML:history", .ptr t_ixml_History),
   (elF chars!"iXML:fileSet", .ptr t_ixml_FileSet), (elF chars!"iXML:trackList", t_ixml_TrackList),
   (elF chars!"iXML:userData", .ptr t_ixml_UserData), (elF chars!"iXML:location", .ptr t_ixml_Location),
   ({ name := chars!"iXML:extension", any := true }, t_xmp_NamedExtensionArray)]

/-- models/qt/types.go:18. -/
def t_qt_LocationRole : Sk := .leaf chars!"qt.LocationRole" {} (.int 64)

/-- models/qt/types.go:49-58 (methods: 60). -/
def t_qt_Location : Sk := st chars!"qt.Location" { ofText := true }
  [(atF chars!"qt:Body", g_string), (atF chars!"qt:Date", t_xmp_Date), (atF chars!"qt:Longitude", t_xmp_GPSCoord),
   (atF chars!"qt:Latitude", t_xmp_GPSCoord), (atF chars!"qt:Altitude", g_float64), (atF chars!"qt:Name", g_string),
   (atF chars!"qt:Note", g_string), (atF chars!"qt:Role", t_qt_LocationRole)]

/-- models/mp4/model.go:37-55. -/
def t_mp4_MP4Info : Sk := st chars!"mp4.MP4Info" {}
  [(elF chars!"mp4:AlbumAndTrack", g_string), (elF chars!"mp4:Author", g_string), (elF chars!"mp4:Classification", g_string),
   (elF chars!"mp4:CollectionName", g_string), (elF chars!"mp4:Copyright", g_string),
   (elF chars!"mp4:CreationDate", t_xmp_Date), (elF chars!"mp4:Description", g_string),
   (elF chars!"mp4:GenreName", g_string), (elF chars!"mp4:KeywordList", t_xmp_StringList),
   (elF chars!"mp4:Location", .ptr t_qt_Location), (elF chars!"mp4:MediaRatingText", g_string),
   (elF chars!"mp4:Performer", g_string), (elF chars!"mp4:RecordingYear", g_int),
   (elF chars!"mp4:TaggedCharacteristic", g_string), (elF chars!"mp4:Thumbnail", g_bytes), (elF chars!"mp4:Title", g_string),
   (elF chars!"mp4:UserRating", g_int)]

/-- models/pdf/model.go:54-67. -/
def t_pdf_PDFInfo : Sk := st chars!"pdf.PDFInfo" {}
  [(elF chars!"dc:title", t_xmp_AltString), (elF chars!"dc:creator", t_xmp_StringList),
   (elF chars!"dc:description", t_xmp_AltString), (elF chars!"pdf:Keywords", g_string),
   (elF chars!"xmp:CreatorTool", t_xmp_AgentName), (elF chars!"pdf:Producer", t_xmp_AgentName),
   (elF chars!"pdf:PDFVersion", g_string), (elF chars!"xmp:CreateDate", t_xmp_Date),
   (elF chars!"xmp:ModifyDate", t_xmp_Date), (elF chars!"pdf:Trapped", t_xmp_Bool), (elF chars!"pdf:Copyright", g_string),
   (elF chars!"pdf:Marked", t_xmp_Bool)]

/-- models/pm/model.go:119 (methods: 133, 140, 129). -/
def t_pm_Time : Sk := .leaf chars!"pm.Time" { toText := true, ofText := true, zero := .own } .time

/-- models/pm/model.go:153-158 (methods: 164, 176, 160). -/
def t_pm_Preferences : Sk := st chars!"pm.Preferences" { toText := true, ofText := true, zero := .own }
  [(elF chars!"TagStatus", g_int), (elF chars!"ColorClass", g_int), (elF chars!"Rating", g_int), (elF chars!"Frame", g_int)]

/-- models/pm/model.go:98-117. -/
def t_pm_Photomechanic : Sk := st chars!"pm.Photomechanic" {}
  [(elF chars!"photomechanic:EditStatus", g_string), (elF chars!"photomechanic:ColorClass", g_int),
   (elF chars!"photomechanic:CountryCode", g_string), (elF chars!"photomechanic:TimeCreated", t_pm_Time),
   (elF chars!"photomechanic:Prefs", t_pm_Preferences), (elF chars!"photomechanic:Tagged", t_xmp_Bool),
   (elF chars!"photomechanic:PMVersion", g_string), (elF chars!"photomechanic:ColorClassEval", g_int),
   (elF chars!"photomechanic:ColorClassApply", t_xmp_Bool), (elF chars!"photomechanic:RatingEval", g_int),
   (elF chars!"photomechanic:RatingApply", t_xmp_Bool), (elF chars!"photomechanic:TagEval", g_int),
   (elF chars!"photomechanic:TagApply", t_xmp_Bool), (elF chars!"photomechanic:CaptionMergeStyle", g_int),
   (elF chars!"photomechanic:ApplyAPCustom", g_int), (elF chars!"photomechanic:MergeAPCustom", g_int),
   (elF chars!"photomechanic:ApplyDateType", g_int), (elF chars!"photomechanic:FieldsToApply", t_xmp_StringArray)]

/-- models/ps/model.go:164. -/
def t_ps_ColorMode : Sk := .leaf chars!"ps.ColorMode" {} (.int 64)

/-- models/ps/model.go:122-124. -/
def t_ps_Anchestor : Sk := st chars!"ps.Anchestor" {}
  [(elF chars!"photoshop:AncestorID", t_xmp_Uri)]

/-- models/ps/model.go:126 (methods: 132, 136). -/
def t_ps_AnchestorArray : Sk := .list chars!"ps.AnchestorArray" { marshal := .array .unordered, unmarshal := .array .unordered } t_ps_Anchestor

/-- models/ps/model.go:141-144 (methods: 146). -/
def t_ps_Layer : Sk := st chars!"ps.Layer" { zero := .own }
  [(elF chars!"photoshop:LayerName", g_string), (elF chars!"photoshop:LayerText", g_string)]

/-- models/ps/model.go:150 (methods: 156, 160). -/
def t_ps_LayerList : Sk := .list chars!"ps.LayerList" { marshal := .array .ordered, unmarshal := .array .ordered } t_ps_Layer

/-- models/ps/model.go:54-79. -/
def t_ps_PhotoshopInfo : Sk := st chars!"ps.PhotoshopInfo" {}
  [(elF chars!"photoshop:AuthorsPosition", g_string), (elF chars!"photoshop:CaptionWriter", g_string),
   (elF chars!"photoshop:Category", g_string), (elF chars!"photoshop:City", g_string),
   (elF chars!"photoshop:ColorMode", t_ps_ColorMode), (elF chars!"photoshop:Country", g_string),
   (elF chars!"photoshop:Credit", g_string), (elF chars!"photoshop:DateCreated", t_xmp_Date),
   (elF chars!"photoshop:DocumentAncestors", t_ps_AnchestorArray), (elF chars!"photoshop:Headline", g_string),
   (elF chars!"photoshop:History", g_string), (elF chars!"photoshop:ICCProfile", g_string),
   (elF chars!"photoshop:Instructions", g_string), (elF chars!"photoshop:Layer", .ptr t_ps_Layer),
   (elF chars!"photoshop:SidecarForExtension", g_string), (elF chars!"photoshop:Source", g_string),
   (elF chars!"photoshop:State", g_string), (elF chars!"photoshop:SupplementalCategories", t_xmp_StringArray),
   (elF chars!"photoshop:TextLayers", t_ps_LayerList), (elF chars!"photoshop:TransmissionReference", g_string),
   (elF chars!"photoshop:Urgency", g_int), ({ name := chars!"photoshop:EmbeddedXMPDigest", omitted := true }, g_string),
   ({ name := chars!"photoshop:LegacyIPTCDigest", omitted := true }, g_string)]

/-- models/qt/types.go:65-68 (methods: 103, 82, 70). -/
def t_qt_Point : Sk := st chars!"qt.Point" { toText := true, ofText := true, zero := .own }
  [(elF chars!"X", g_int), (elF chars!"Y", g_int)]

/-- models/qt/qt_userdata.go:28-166. -/
def t_qt_QtUserdata : Sk := st chars!"qt.QtUserdata" {}
  [(elF chars!"qt:Album", g_string), (elF chars!"qt:Arranger", g_string), (elF chars!"qt:Artist", g_string),
   (elF chars!"qt:Author", g_string), (elF chars!"qt:Chapter", g_string), (elF chars!"qt:Comment", g_string),
   (elF chars!"qt:Composer", g_string), (elF chars!"qt:Copyright", g_string), (elF chars!"qt:ReleaseDate", t_xmp_Date),
   (elF chars!"qt:Description", g_string), (elF chars!"qt:Director", g_string), (elF chars!"qt:Disclaimer", g_string),
   (elF chars!"qt:EncodedBy", g_string), (elF chars!"qt:Title", g_string), (elF chars!"qt:GenreName", g_string),
   (elF chars!"qt:HostComputer", g_string), (elF chars!"qt:Information", g_string), (elF chars!"qt:Keywords", g_string),
   (elF chars!"qt:FileCreator", g_string), (elF chars!"qt:FileCreatorModel", g_string),
   (elF chars!"qt:OriginalArtist", g_string), (elF chars!"qt:FileFormat", g_string), (elF chars!"qt:Credits", g_string),
   (elF chars!"qt:Performer", g_string), (elF chars!"qt:Producer", g_string), (elF chars!"qt:Publisher", g_string),
   (elF chars!"qt:Product", g_string), (elF chars!"qt:FileCreatorSoftware", g_string),
   (elF chars!"qt:PlaybackRequirements", g_string), (elF chars!"qt:Track", g_string), (elF chars!"qt:CopyWarning", g_string),
   (elF chars!"qt:Writer", g_string), (elF chars!"qt:Url", t_xmp_Url), (elF chars!"qt:LocationGPS", .ptr t_qt_Location),
   (elF chars!"qt:TrackName", g_string), (elF chars!"qt:PhonogramRights", g_string), (elF chars!"qt:DisplayName", g_string),
   (elF chars!"qt:TaggedCharacteristic", g_string), (elF chars!"qt:AudioBookReleaseDate", t_xmp_Date),
   (elF chars!"qt:ClipFileName", g_string), (elF chars!"qt:ClipID", g_string),
   (elF chars!"qt:ContentDistributorID", g_string), (elF chars!"qt:ContentID", g_string),
   (elF chars!"qt:CreationDate", t_xmp_Date), (elF chars!"qt:Grouping", g_string), (elF chars!"qt:GUID", g_string),
   (elF chars!"qt:ISRCCode", g_string), (elF chars!"qt:AlbumArtist", g_string), (elF chars!"qt:Angle", g_string),
   (elF chars!"qt:ArrangerKeywords", g_string), (elF chars!"qt:AudibleTags", g_string), (elF chars!"qt:CameraID", g_string),
   (elF chars!"qt:CameraManufacturer", g_string), (elF chars!"qt:CameraModel", g_string),
   (elF chars!"qt:CameraName", g_string), (elF chars!"qt:CameraSerialNumber", g_string),
   (elF chars!"qt:ChapterList", g_string), (elF chars!"qt:ComposerKeywords", g_string), (elF chars!"qt:Edit1", g_string),
   (elF chars!"qt:Edit2", g_string), (elF chars!"qt:Edit3", g_string), (elF chars!"qt:Edit4", g_string),
   (elF chars!"qt:Edit5", g_string), (elF chars!"qt:Edit6", g_string), (elF chars!"qt:Edit7", g_string),
   (elF chars!"qt:Edit8", g_string), (elF chars!"qt:Edit9", g_string), (elF chars!"qt:FileCreatorModel2", g_string),
   (elF chars!"qt:FileCreatorUrl", t_xmp_Url), (elF chars!"qt:Lyrics", g_string), (elF chars!"qt:LyricsUrl", t_xmp_Url),
   (elF chars!"qt:OriginalFormat", g_string), (elF chars!"qt:OriginalSource", g_string),
   (elF chars!"qt:PerformerKeywords", g_string), (elF chars!"qt:PerformerUrl", t_xmp_Url),
   (elF chars!"qt:ProducerKeywords", g_string), (elF chars!"qt:ProductVersion", g_string),
   (elF chars!"qt:RecordLabelName", g_string), (elF chars!"qt:RecordLabelUrl", t_xmp_Url), (elF chars!"qt:Reel", g_string),
   (elF chars!"qt:Scene", g_string), (elF chars!"qt:Shot", g_string), (elF chars!"qt:SongWriter", g_string),
   (elF chars!"qt:SongWriterKeywords", g_string), (elF chars!"qt:Subtitle", g_string),
   (elF chars!"qt:SubtitleKeywords", g_string), (elF chars!"qt:Synopsis", g_string),
   (elF chars!"qt:TitleKeywords", g_string), (elF chars!"qt:CoverArt", g_string), (elF chars!"qt:CollectionUser", g_string),
   (elF chars!"qt:UserRating", g_string), (elF chars!"qt:RecordingYear", g_int), (elF chars!"qt:ApertureMode", g_string),
   (elF chars!"qt:FlightPitch", g_float64), (elF chars!"qt:FlightRoll", g_float64), (elF chars!"qt:FlightSpeedX", g_float64),
   (elF chars!"qt:FlightSpeedY", g_float64), (elF chars!"qt:FlightSpeedZ", g_float64), (elF chars!"qt:FlightYaw", g_float64),
   (elF chars!"qt:GimbalPitch", g_float64), (elF chars!"qt:GimbalRoll", g_float64), (elF chars!"qt:GimbalYaw", g_float64),
   (elF chars!"qt:HintInfo", g_string), (elF chars!"qt:HintTrackInfo", g_string), (elF chars!"qt:HintVersion", g_string),
   (elF chars!"qt:PrintToVideo", g_string), (elF chars!"qt:TrackType", g_string),
   (elF chars!"qt:WindowLocation", t_qt_Point), (elF chars!"qt:GoogleHostHeader", g_string),
   (elF chars!"qt:GooglePingMessage", g_string), (elF chars!"qt:GooglePingURL", g_string),
   (elF chars!"qt:GoogleSourceData", g_string), (elF chars!"qt:GoogleStartTime", g_string),
   (elF chars!"qt:GoogleTrackDuration", g_string), (elF chars!"qt:CanonCodec", g_string),
   (elF chars!"qt:CanonModel", g_string), (elF chars!"qt:CanonFirmware", g_string), (elF chars!"qt:CanonThumbnail", g_bytes)]

/-- models/qt/types.go:26. -/
def t_qt_Bool : Sk := .leaf chars!"qt.Bool" {} (.int 64)

/-- models/qt/qt_metadata.go:41-111. -/
def t_qt_QtMetadata : Sk := st chars!"qt.QtMetadata" {}
  [(elF chars!"qt:Album", g_string), (elF chars!"qt:Arranger", g_string), (elF chars!"qt:Artist", g_string),
   (elF chars!"qt:Artwork", g_string), (elF chars!"qt:Author", g_string), (elF chars!"qt:CameraFrameReadoutTime", g_string),
   (elF chars!"qt:CameraIdentifier", g_string), (elF chars!"qt:CollectionUser", g_string),
   (elF chars!"qt:Comment", g_string), (elF chars!"qt:Composer", g_string), (elF chars!"qt:ContentIdentifier", g_string),
   (elF chars!"qt:Copyright", g_string), (elF chars!"qt:CreationDate", t_xmp_Date), (elF chars!"qt:Credits", g_string),
   (elF chars!"qt:Description", g_string), (elF chars!"qt:DirectionFacing", g_float64),
   (elF chars!"qt:DirectionMotion", g_float64), (elF chars!"qt:Director", g_string), (elF chars!"qt:DisplayName", g_string),
   (elF chars!"qt:EncodedBy", g_string), (elF chars!"qt:Genre", g_string), (elF chars!"qt:Information", g_string),
   (elF chars!"qt:Keywords", t_xmp_StringList), (elF chars!"qt:Make", g_string), (elF chars!"qt:Model", g_string),
   (elF chars!"qt:OriginalArtist", g_string), (elF chars!"qt:Performer", g_string),
   (elF chars!"qt:PhonogramRights", g_string), (elF chars!"qt:Producer", g_string), (elF chars!"qt:Publisher", g_string),
   (elF chars!"qt:USRating", g_float64), (elF chars!"qt:Software", g_string), (elF chars!"qt:Title", g_string),
   (elF chars!"qt:Year", g_int), (elF chars!"qt:Version", g_string), (elF chars!"qt:PreferredAffineTransform", g_string),
   (elF chars!"qt:VideoOrientation", t_tiff_OrientationType), (elF chars!"qt:WindowLocation", t_qt_Point),
   (elF chars!"qt:CoreMotion", g_string), (elF chars!"qt:CameraDebugInfo", g_string), (elF chars!"qt:IsMontage", g_string),
   (elF chars!"qt:PixelDensity", g_string), (elF chars!"qt:DetectedFace", g_string), (elF chars!"qt:HasEAN13", t_qt_Bool),
   (elF chars!"qt:HasEAN8", t_qt_Bool), (elF chars!"qt:HasUPCE", t_qt_Bool), (elF chars!"qt:HasCode39", t_qt_Bool),
   (elF chars!"qt:HasCode39Checksum", t_qt_Bool), (elF chars!"qt:HasCode93", t_qt_Bool),
   (elF chars!"qt:HasCode128", t_qt_Bool), (elF chars!"qt:HasI2of5", t_qt_Bool), (elF chars!"qt:HasITF14", t_qt_Bool),
   (elF chars!"qt:HasDataMatrix", t_qt_Bool), (elF chars!"qt:HasQR", t_qt_Bool), (elF chars!"qt:HasAztec", t_qt_Bool),
   (elF chars!"qt:HasPDF417", t_qt_Bool), (elF chars!"qt:extension", t_xmp_TagList),
   (elF chars!"qt:Location", .ptr t_qt_Location)]

/-- models/qt/qt_player.go:22-34. -/
def t_qt_QtPlayer : Sk := st chars!"qt.QtPlayer" {}
  [(elF chars!"qt:AudioBalance", g_float32), (elF chars!"qt:AudioBass", g_float32), (elF chars!"qt:AudioGain", g_float32),
   (elF chars!"qt:AudioMute", t_qt_Bool), (elF chars!"qt:AudioPitchshift", g_float32),
   (elF chars!"qt:AudioTreble", g_float32), (elF chars!"qt:VisualBrightness", g_float32),
   (elF chars!"qt:VisualColor", g_float32), (elF chars!"qt:VisualContrast", g_float32),
   (elF chars!"qt:VisualTint", g_float32), (elF chars!"qt:Version", g_string)]

/-- models/qt/qt_proapps.go:22-72. -/
def t_qt_QtProApps : Sk := st chars!"qt.QtProApps" {}
  [(elF chars!"qt:ClipID", g_string), (elF chars!"qt:OriginalFormat", g_string), (elF chars!"qt:CustomColor", g_string),
   (elF chars!"qt:CameraName", g_string), (elF chars!"qt:MIOCameraName", g_string), (elF chars!"qt:Scene", g_string),
   (elF chars!"qt:Shot", g_string), (elF chars!"qt:Angle", g_string), (elF chars!"qt:LogNote", g_string),
   (elF chars!"qt:Lastupdatedate", t_xmp_Date), (elF chars!"qt:IngestDateDescription", g_string),
   (elF chars!"qt:StartTimeCodeFrameCount", g_int64), (elF chars!"qt:DropFrame", t_qt_Bool),
   (elF chars!"qt:VideoFrameDuration", g_int64), (elF chars!"qt:Category", g_string), (elF chars!"qt:ShareID", g_string),
   (elF chars!"qt:EpisodeID", g_string), (elF chars!"qt:EpisodeNumber", g_string), (elF chars!"qt:MediaKind", g_string),
   (elF chars!"qt:Screenwriters", g_string), (elF chars!"qt:SeasonNumber", g_string), (elF chars!"qt:TVNetwork", g_string),
   (elF chars!"qt:Reel", g_string), (elF chars!"qt:CameraID", g_string), (elF chars!"qt:CameraManufacturer", g_string),
   (elF chars!"qt:CameraModel", g_string), (elF chars!"qt:CameraSerialNumber", g_string),
   (elF chars!"qt:ClipFileName", g_string), (elF chars!"qt:AscCDL", g_string), (elF chars!"qt:IsGood", g_string),
   (elF chars!"qt:DataSize", g_string), (elF chars!"qt:DisplayFormat", g_string), (elF chars!"qt:ShootingRate", g_string),
   (elF chars!"qt:VideoBitrate", g_string), (elF chars!"qt:Pulldown", g_string), (elF chars!"qt:MediaRate", g_string),
   (elF chars!"qt:TimecodeFormat", g_string), (elF chars!"qt:NumberOfAudioChannels", g_string),
   (elF chars!"qt:SampleRate", g_string), (elF chars!"qt:BitsPerSample", g_string),
   (elF chars!"qt:StudioAlphaHandling", g_string), (elF chars!"qt:StudioCameraAngle", g_string),
   (elF chars!"qt:StudioAnamorphicOverride", g_string), (elF chars!"qt:StudioDeinterlace", g_string),
   (elF chars!"qt:StudioFieldDominanceOverride", g_string), (elF chars!"qt:StudioLocation", g_string),
   (elF chars!"qt:StudioReel", g_string), (elF chars!"qt:StudioScene", g_string), (elF chars!"qt:StudioTake", g_string)]

/-- models/qt/model.go:74-86. -/
def t_qt_QtInfo : Sk := st chars!"qt.QtInfo" {}
  [(elF chars!"qt:udta", .ptr t_qt_QtUserdata), (elF chars!"qt:mdta", .ptr t_qt_QtMetadata),
   (elF chars!"qt:player", .ptr t_qt_QtPlayer), (elF chars!"qt:proapps", .ptr t_qt_QtProApps),
   (elF chars!"qt:extension", t_xmp_TagList)]

/-- models/riff/types.go:22 (methods: 33, 37, 28). -/
def t_riff_StringArray : Sk := .list chars!"riff.StringArray" { marshal := .array .unordered, unmarshal := .array .unordered, ofText := true } g_string

/-- models/riff/types.go:41 (methods: 56, 60, 43). -/
def t_riff_AltString : Sk := .list chars!"riff.AltString" { marshal := .alt, unmarshal := .altRaw, ofText := true } t_xmp_AltItem

/-- models/riff/model.go:54-145. -/
def t_riff_RiffInfo : Sk := st chars!"riff.RiffInfo" {}
  [(elF chars!"riffinfo:archivalLocation", g_string), (elF chars!"xmpDM:artist", g_string),
   (elF chars!"riffinfo:commissioned", t_riff_StringArray), (elF chars!"xmpDM:logComment", g_string),
   (elF chars!"dc:rights", t_riff_AltString), (elF chars!"xmp:CreateDate", t_xmp_Date),
   (elF chars!"xmpDM:engineer", g_string), (elF chars!"xmpDM:genre", g_string), (elF chars!"dc:subject", t_riff_StringArray),
   (elF chars!"dc:source", g_string), (elF chars!"riffinfo:name", t_riff_AltString),
   (elF chars!"riffinfo:product", g_string), (elF chars!"dc:description", t_riff_AltString),
   (elF chars!"xmp:CreatorTool", t_xmp_AgentName), (elF chars!"riffinfo:source", g_string),
   (elF chars!"dc:type", t_riff_StringArray), (elF chars!"riffinfo:technician", g_string),
   (elF chars!"riffinfo:Rated", g_string), (elF chars!"riffinfo:Comment", g_string),
   (elF chars!"riffinfo:EncodedBy", g_string), (elF chars!"riffinfo:Comments", g_string),
   (elF chars!"riffinfo:Directory", g_string), (elF chars!"riffinfo:SoundSchemeTitle", g_string),
   (elF chars!"riffinfo:DateTimeOriginal", g_string), (elF chars!"riffinfo:Genre", g_string),
   (elF chars!"riffinfo:ArchivalLocation", g_string), (elF chars!"riffinfo:FirstLanguage", g_string),
   (elF chars!"riffinfo:SecondLanguage", g_string), (elF chars!"riffinfo:ThirdLanguage", g_string),
   (elF chars!"riffinfo:FourthLanguage", g_string), (elF chars!"riffinfo:FifthLanguage", g_string),
   (elF chars!"riffinfo:SixthLanguage", g_string), (elF chars!"riffinfo:SeventhLanguage", g_string),
   (elF chars!"riffinfo:EighthLanguage", g_string), (elF chars!"riffinfo:NinthLanguage", g_string),
   (elF chars!"riffinfo:BaseURL", g_string), (elF chars!"riffinfo:DefaultAudioStream", g_string),
   (elF chars!"riffinfo:CostumeDesigner", g_string), (elF chars!"riffinfo:Commissioned", g_string),
   (elF chars!"riffinfo:Cinematographer", g_string), (elF chars!"riffinfo:Country", g_string),
   (elF chars!"riffinfo:Cropped", g_string), (elF chars!"riffinfo:Dimensions", g_string),
   (elF chars!"riffinfo:DotsPerInch", g_string), (elF chars!"riffinfo:DistributedBy", g_string),
   (elF chars!"riffinfo:EditedBy", g_string), (elF chars!"riffinfo:Lightness", g_string),
   (elF chars!"riffinfo:LogoURL", g_string), (elF chars!"riffinfo:LogoIconURL", g_string),
   (elF chars!"riffinfo:Language", g_string), (elF chars!"riffinfo:MoreInfoBannerImage", g_string),
   (elF chars!"riffinfo:MoreInfoBannerURL", g_string), (elF chars!"riffinfo:MoreInfoText", g_string),
   (elF chars!"riffinfo:MoreInfoURL", g_string), (elF chars!"riffinfo:MusicBy", g_string),
   (elF chars!"riffinfo:ProductionDesigner", g_string), (elF chars!"riffinfo:NumColors", g_string),
   (elF chars!"riffinfo:ProducedBy", g_string), (elF chars!"riffinfo:RippedBy", g_string),
   (elF chars!"riffinfo:Rating", g_string), (elF chars!"riffinfo:SecondaryGenre", g_string),
   (elF chars!"riffinfo:Sharpness", g_string), (elF chars!"riffinfo:TimeCode", g_string),
   (elF chars!"riffinfo:ProductionStudio", g_string), (elF chars!"riffinfo:Starring", g_string),
   (elF chars!"riffinfo:WatermarkURL", g_string), (elF chars!"riffinfo:WrittenBy", g_string),
   (elF chars!"riffinfo:Language2", g_string), (elF chars!"riffinfo:Location", g_string),
   (elF chars!"riffinfo:Part", g_string), (elF chars!"riffinfo:NumberOfParts", g_string),
   (elF chars!"riffinfo:Rate", g_string), (elF chars!"riffinfo:Statistics", g_string),
   (elF chars!"riffinfo:TapeName", g_string), (elF chars!"riffinfo:EndTimecode", g_string),
   (elF chars!"riffinfo:StartTimecode", g_string), (elF chars!"riffinfo:Title", g_string),
   (elF chars!"riffinfo:Length", g_string), (elF chars!"riffinfo:Organization", g_string),
   (elF chars!"riffinfo:TrackNumber", g_string), (elF chars!"riffinfo:URL", g_string),
   (elF chars!"riffinfo:Version", g_string), (elF chars!"riffinfo:VegasVersionMajor", g_string),
   (elF chars!"riffinfo:VegasVersionMinor", g_string), (elF chars!"riffinfo:Year", g_string)]

/-- models/tiff/model.go:56-92. -/
def t_tiff_TiffInfo : Sk := st chars!"tiff.TiffInfo" {}
  [(elF chars!"dc:creator", t_xmp_StringList), (elF chars!"tiff:BitsPerSample", t_xmp_IntList),
   (elF chars!"tiff:Compression", t_tiff_CompressionType), (elF chars!"xmp:ModifyDate", t_xmp_Date),
   (elF chars!"tiff:ImageLength", g_int), (elF chars!"tiff:ImageWidth", g_int), (elF chars!"tiff:Make", g_string),
   (elF chars!"tiff:Model", g_string), (elF chars!"xmp:CreatorTool", g_string),
   (elF chars!"dc:description", t_xmp_AltString), (elF chars!"dc:rights", t_xmp_AltString),
   (elF chars!"tiff:Orientation", t_tiff_OrientationType), (elF chars!"tiff:PhotometricInterpretation", t_tiff_ColorModel),
   (elF chars!"tiff:PlanarConfiguration", t_tiff_PlanarType), (elF chars!"tiff:PrimaryChromaticities", t_xmp_RationalArray),
   (elF chars!"tiff:ReferenceBlackWhite", t_xmp_RationalArray), (elF chars!"tiff:ResolutionUnit", t_tiff_ResolutionUnit),
   (elF chars!"tiff:SamplesPerPixel", g_int), (elF chars!"tiff:TransferFunction", t_xmp_IntList),
   (elF chars!"tiff:WhitePoint", t_xmp_RationalArray), (elF chars!"tiff:XResolution", t_xmp_Rational),
   (elF chars!"tiff:YCbCrCoefficients", t_xmp_RationalArray), (elF chars!"tiff:YCbCrPositioning", t_tiff_YCbCrPosition),
   (elF chars!"tiff:YCbCrSubSampling", t_tiff_YCbCrSubSampling), (elF chars!"tiff:YResolution", t_xmp_Rational),
   ({ name := chars!"tiff:NativeDigest", omitted := true }, g_string),
   ({ name := chars!"tiff:Artist", omitted := true }, g_string),
   ({ name := chars!"tiff:DateTime", omitted := true }, t_xmp_Date),
   ({ name := chars!"tiff:Software", omitted := true }, g_string),
   ({ name := chars!"tiff:ImageDescription", omitted := true }, t_xmp_AltString),
   ({ name := chars!"tiff:Copyright", omitted := true }, t_xmp_AltString)]

/-- models/xmp_base/types.go:51 (methods: 56, 71, 96, 106).  Not described further. -/
def t_xmp_base_Identifier : Sk := .leaf chars!"xmp_base.Identifier" { marshal := .other, unmarshal := .other, toText := true, ofText := true } .time

/-- models/xmp_base/types.go:111 (methods: 161, 165, 123). -/
def t_xmp_base_IdentifierArray : Sk := .list chars!"xmp_base.IdentifierArray" { marshal := .array .unordered, unmarshal := .array .unordered, zero := .plain } t_xmp_base_Identifier

/-- models/xmp_base/types.go:23. -/
def t_xmp_base_Rating : Sk := .leaf chars!"xmp_base.Rating" {} (.int 64)

/-- models/xmp_base/types.go:170-175 (methods: 181, 177). -/
def t_xmp_base_Thumbnail : Sk := st chars!"xmp_base.Thumbnail" { marshal := .fields, zero := .own }
  [(elF chars!"xmpGImg:format", g_string), (elF chars!"xmpGImg:height", g_int64), (elF chars!"xmpGImg:width", g_int64),
   (elF chars!"xmpGImg:image", g_bytes)]

/-- models/xmp_base/types.go:189 (methods: 195, 199). -/
def t_xmp_base_ThumbnailArray : Sk := .list chars!"xmp_base.ThumbnailArray" { marshal := .array .alternative, unmarshal := .array .alternative } t_xmp_base_Thumbnail

/-- models/xmp_base/model.go:59-72. -/
def t_xmp_base_XmpBase : Sk := st chars!"xmp_base.XmpBase" {}
  [(elF chars!"xmp:Advisory", t_xmp_StringArray), (elF chars!"xmp:BaseURL", t_xmp_Uri),
   (elF chars!"xmp:CreateDate", t_xmp_Date), (elF chars!"xmp:CreatorTool", t_xmp_AgentName),
   (elF chars!"xmp:Identifier", t_xmp_base_IdentifierArray), (elF chars!"xmp:Label", g_string),
   (elF chars!"xmp:MetadataDate", t_xmp_Date), (elF chars!"xmp:ModifyDate", t_xmp_Date),
   (elF chars!"xmp:Nickname", g_string), (elF chars!"xmp:Rating", t_xmp_base_Rating),
   (elF chars!"xmp:Thumbnails", t_xmp_base_ThumbnailArray), (elF chars!"xmp:extension", t_xmp_NamedExtensionArray)]

/-- models/xmp_bj/types.go:23-27 (methods: 33, 29). -/
def t_xmp_bj_Job : Sk := st chars!"xmp_bj.Job" { marshal := .fields, zero := .own }
  [(atF chars!"stJob:id", g_string), (atF chars!"stJob:name", g_string), (atF chars!"stJob:url", t_xmp_Uri)]

/-- models/xmp_bj/types.go:41 (methods: 47, 51). -/
def t_xmp_bj_JobArray : Sk := .list chars!"xmp_bj.JobArray" { marshal := .array .unordered, unmarshal := .array .unordered } (.ptr t_xmp_bj_Job)

/-- models/xmp_bj/model.go:53-55. -/
def t_xmp_bj_JobTicket : Sk := st chars!"xmp_bj.JobTicket" {}
  [(elF chars!"xmpBJ:JobRef", t_xmp_bj_JobArray)]

/-- models/xmp_dm/types.go:579 (methods: 675, 681, 642).  Not described further. -/
def t_xmp_dm_Timecode : Sk := .leaf chars!"xmp_dm.Timecode" { marshal := .other, unmarshal := .other, zero := .own } .time

/-- models/xmp_dm/enum.go:30. -/
def t_xmp_dm_AudioChannelType : Sk := .leaf chars!"xmp_dm.AudioChannelType" {} .str

/-- models/xmp_dm/enum.go:42. -/
def t_xmp_dm_AudioSampleType : Sk := .leaf chars!"xmp_dm.AudioSampleType" {} .str

/-- models/xmp_dm/types.go:502-505 (methods: 507). -/
def t_xmp_dm_MediaTime : Sk := st chars!"xmp_dm.MediaTime" { zero := .own }
  [(atF chars!"xmpDM:scale", t_xmp_Rational), (atF chars!"xmpDM:value", g_int64)]

/-- models/xmp_dm/types.go:247-251 (methods: 253). -/
def t_xmp_dm_BeatSpliceStretch : Sk := st chars!"xmp_dm.BeatSpliceStretch" { zero := .own }
  [(atF chars!"xmpDM:riseInDecibel", g_float64), (elF chars!"xmpDM:riseInTimeDuration", t_xmp_dm_MediaTime),
   (atF chars!"xmpDM:useFileBeatsMarker", t_xmp_Bool)]

/-- models/xmp_dm/enum.go:56. -/
def t_xmp_dm_CameraAngle : Sk := .leaf chars!"xmp_dm.CameraAngle" {} .str

/-- models/xmp_dm/enum.go:71. -/
def t_xmp_dm_CameraMove : Sk := .leaf chars!"xmp_dm.CameraMove" {} .str

/-- models/xmp_dm/types.go:459-466. -/
def t_xmp_dm_Media : Sk := st chars!"xmp_dm.Media" {}
  [(elF chars!"xmpDM:duration", t_xmp_dm_MediaTime), (atF chars!"xmpDM:managed", t_xmp_Bool),
   (atF chars!"xmpDM:path", t_xmp_Uri), (elF chars!"xmpDM:startTime", t_xmp_dm_MediaTime),
   (atF chars!"xmpDM:track", g_string), (elF chars!"xmpDM:webStatement", t_xmp_Uri)]

/-- models/xmp_dm/types.go:468 (methods: 474, 478). -/
def t_xmp_dm_MediaArray : Sk := .list chars!"xmp_dm.MediaArray" { marshal := .array .unordered, unmarshal := .array .unordered } t_xmp_dm_Media

/-- models/xmp_dm/enum.go:95. -/
def t_xmp_dm_MusicalKey : Sk := .leaf chars!"xmp_dm.MusicalKey" {} .str

/-- models/xmp_dm/types.go:373-385 (methods: 387). -/
def t_xmp_dm_Marker : Sk := st chars!"xmp_dm.Marker" { zero := .own }
  [(atF chars!"xmpDM:comment", g_string), (elF chars!"xmpDM:cuePointParams", t_xmp_dm_CuePointParamArray),
   (atF chars!"xmpDM:cuePointType", g_string), (atF chars!"xmpDM:duration", t_xmp_dm_FrameCount),
   (elF chars!"xmpDM:location", t_xmp_Uri), (atF chars!"xmpDM:name", g_string), (atF chars!"xmpDM:probability", g_float64),
   (atF chars!"xmpDM:speaker", g_string), (atF chars!"xmpDM:startTime", t_xmp_dm_FrameCount),
   (atF chars!"xmpDM:target", g_string), (elF chars!"xmpDM:type", t_xmp_dm_MarkerTypeList)]

/-- models/xmp_dm/types.go:401 (methods: 407, 411). -/
def t_xmp_dm_MarkerList : Sk := .list chars!"xmp_dm.MarkerList" { marshal := .array .ordered, unmarshal := .array .ordered } t_xmp_dm_Marker

/-- models/xmp_dm/enum.go:241. -/
def t_xmp_dm_FileType : Sk := .leaf chars!"xmp_dm.FileType" {} .str

/-- models/xmp_dm/types.go:483-486 (methods: 488). -/
def t_xmp_dm_ProjectLink : Sk := st chars!"xmp_dm.ProjectLink" { zero := .own }
  [(elF chars!"xmpDM:path", t_xmp_Uri), (atF chars!"xmpDM:type", t_xmp_dm_FileType)]

/-- models/xmp_dm/enum.go:123. -/
def t_xmp_dm_PullDown : Sk := .leaf chars!"xmp_dm.PullDown" {} .str

/-- models/xmp_dm/enum.go:232. -/
def t_xmp_dm_Quality : Sk := .leaf chars!"xmp_dm.Quality" {} .str

/-- models/xmp_dm/types.go:493-495 (methods: 497). -/
def t_xmp_dm_ResampleStretch : Sk := st chars!"xmp_dm.ResampleStretch" { zero := .own }
  [(atF chars!"xmpDM:quality", t_xmp_dm_Quality)]

/-- models/xmp_dm/enum.go:113. -/
def t_xmp_dm_MusicalScale : Sk := .leaf chars!"xmp_dm.MusicalScale" {} .str

/-- models/xmp_dm/enum.go:139. -/
def t_xmp_dm_ShotSize : Sk := .leaf chars!"xmp_dm.ShotSize" {} .str

/-- models/xmp_dm/enum.go:152. -/
def t_xmp_dm_StretchMode : Sk := .leaf chars!"xmp_dm.StretchMode" {} .str

/-- models/xmp_dm/types.go:710-714 (methods: 716). -/
def t_xmp_dm_TimeScaleStretch : Sk := st chars!"xmp_dm.TimeScaleStretch" { zero := .own }
  [(atF chars!"xmpDM:frameOverlappingPercentage", g_float64), (atF chars!"xmpDM:frameSize", g_float64),
   (atF chars!"xmpDM:quality", t_xmp_dm_Quality)]

/-- models/xmp_dm/enum.go:163. -/
def t_xmp_dm_TimeSignature : Sk := .leaf chars!"xmp_dm.TimeSignature" {} .str

/-- models/xmp_dm/types.go:721-726. -/
def t_xmp_dm_Track : Sk := st chars!"xmp_dm.Track" {}
  [(atF chars!"xmpDM:frameRate", t_xmp_dm_FrameRate), (elF chars!"xmpDM:markers", t_xmp_dm_MarkerList),
   (atF chars!"xmpDM:trackName", g_string), (atF chars!"xmpDM:trackType", t_xmp_dm_MarkerTypeList)]

/-- models/xmp_dm/types.go:728 (methods: 734, 738). -/
def t_xmp_dm_TrackArray : Sk := .list chars!"xmp_dm.TrackArray" { marshal := .array .unordered, unmarshal := .array .unordered } t_xmp_dm_Track

/-- models/xmp_dm/enum.go:177. -/
def t_xmp_dm_AlphaMode : Sk := .leaf chars!"xmp_dm.AlphaMode" {} .str

/-- models/xmp_tpg/types.go:140. -/
def t_xmp_tpg_ColorantMode : Sk := .leaf chars!"xmp_tpg.ColorantMode" {} .str

/-- models/xmp_tpg/types.go:148. -/
def t_xmp_tpg_ColorType : Sk := .leaf chars!"xmp_tpg.ColorType" {} .str

/-- models/xmp_tpg/types.go:109-123 (methods: 132, 125). -/
def t_xmp_tpg_Colorant : Sk := st chars!"xmp_tpg.Colorant" { marshal := .fields, zero := .own }
  [(atF chars!"xmpG:A", g_int64), (atF chars!"xmpG:B", g_int64), (atF chars!"xmpG:L", g_float64),
   (atF chars!"xmpG:black", g_float64), (atF chars!"xmpG:cyan", g_float64), (atF chars!"xmpG:magenta", g_float64),
   (atF chars!"xmpG:yellow", g_float64), (atF chars!"xmpG:blue", g_int64), (atF chars!"xmpG:green", g_int64),
   (atF chars!"xmpG:red", g_int64), (atF chars!"xmpG:mode", t_xmp_tpg_ColorantMode), (atF chars!"xmpG:swatchName", g_string),
   (atF chars!"xmpG:type", t_xmp_tpg_ColorType)]

/-- models/xmp_dm/enum.go:186. -/
def t_xmp_dm_ColorSpace : Sk := .leaf chars!"xmp_dm.ColorSpace" {} .str

/-- models/xmp_dm/enum.go:195. -/
def t_xmp_dm_FieldOrder : Sk := .leaf chars!"xmp_dm.FieldOrder" {} .str

/-- models/xmp_dm/types.go:281 (methods: 283). -/
def t_xmp_dm_VideoFrameRate : Sk := .leaf chars!"xmp_dm.VideoFrameRate" { ofText := true } .float

/-- models/xmp_tpg/types.go:64. -/
def t_xmp_tpg_Unit : Sk := .leaf chars!"xmp_tpg.Unit" {} .str

/-- models/xmp_tpg/types.go:46-50 (methods: 56, 52). -/
def t_xmp_tpg_Dimensions : Sk := st chars!"xmp_tpg.Dimensions" { marshal := .fields, zero := .own }
  [(atF chars!"stDim:h", g_float32), (atF chars!"stDim:w", g_float32), (atF chars!"stDim:unit", t_xmp_tpg_Unit)]

/-- models/xmp_dm/enum.go:204. -/
def t_xmp_dm_PixelDepth : Sk := .leaf chars!"xmp_dm.PixelDepth" {} .str

/-- models/xmp_dm/model.go:52-128. -/
def t_xmp_dm_XmpDM : Sk := st chars!"xmp_dm.XmpDM" {}
  [(elF chars!"xmpDM:absPeakAudioFilePath", g_string), (elF chars!"xmpDM:album", g_string),
   (elF chars!"xmpDM:altTapeName", g_string), (elF chars!"xmpDM:altTimecode", t_xmp_dm_Timecode),
   (elF chars!"xmpDM:artist", g_string), (elF chars!"xmpDM:audioChannelType", t_xmp_dm_AudioChannelType),
   (elF chars!"xmpDM:audioCompressor", g_string), (elF chars!"xmpDM:audioSampleRate", g_float64),
   (elF chars!"xmpDM:audioSampleType", t_xmp_dm_AudioSampleType),
   (elF chars!"xmpDM:beatSpliceParams", t_xmp_dm_BeatSpliceStretch), (elF chars!"xmpDM:cameraAngle", t_xmp_dm_CameraAngle),
   (elF chars!"xmpDM:cameraLabel", g_string), (elF chars!"xmpDM:cameraModel", g_string),
   (elF chars!"xmpDM:cameraMove", t_xmp_dm_CameraMove), (elF chars!"xmpDM:client", g_string),
   (elF chars!"xmpDM:comment", g_string), (elF chars!"xmpDM:composer", g_string),
   (elF chars!"xmpDM:contributedMedia", t_xmp_dm_MediaArray), (elF chars!"xmpDM:director", g_string),
   (elF chars!"xmpDM:directorPhotography", g_string), (elF chars!"xmpDM:duration", t_xmp_dm_MediaTime),
   (elF chars!"xmpDM:engineer", g_string), (elF chars!"xmpDM:fileDataRate", t_xmp_Rational),
   (elF chars!"xmpDM:genre", g_string), (elF chars!"xmpDM:good", t_xmp_Bool), (elF chars!"xmpDM:instrument", g_string),
   (elF chars!"xmpDM:introTime", t_xmp_dm_MediaTime), (elF chars!"xmpDM:key", t_xmp_dm_MusicalKey),
   (elF chars!"xmpDM:logComment", g_string), (elF chars!"xmpDM:loop", t_xmp_Bool),
   (elF chars!"xmpDM:numberOfBeats", g_float64), (elF chars!"xmpDM:markers", t_xmp_dm_MarkerList),
   (elF chars!"xmpDM:outCue", t_xmp_dm_MediaTime), (elF chars!"xmpDM:projectName", g_string),
   (elF chars!"xmpDM:projectRef", t_xmp_dm_ProjectLink), (elF chars!"xmpDM:pullDown", t_xmp_dm_PullDown),
   (elF chars!"xmpDM:relativePeakAudioFilePath", t_xmp_Uri), (elF chars!"xmpDM:relativeTimestamp", t_xmp_dm_MediaTime),
   (elF chars!"xmpDM:releaseDate", t_xmp_Date), (elF chars!"xmpDM:resampleParams", t_xmp_dm_ResampleStretch),
   (elF chars!"xmpDM:scaleType", t_xmp_dm_MusicalScale), (elF chars!"xmpDM:scene", g_string),
   (elF chars!"xmpDM:shotDate", t_xmp_Date), (elF chars!"xmpDM:shotDay", g_string),
   (elF chars!"xmpDM:shotLocation", g_string), (elF chars!"xmpDM:shotName", g_string),
   (elF chars!"xmpDM:shotNumber", g_string), (elF chars!"xmpDM:shotSize", t_xmp_dm_ShotSize),
   (elF chars!"xmpDM:speakerPlacement", g_string), (elF chars!"xmpDM:startTimecode", t_xmp_dm_Timecode),
   (elF chars!"xmpDM:stretchMode", t_xmp_dm_StretchMode), (elF chars!"xmpDM:takeNumber", g_int),
   (elF chars!"xmpDM:tapeName", g_string), (elF chars!"xmpDM:tempo", g_float64),
   (elF chars!"xmpDM:timeScaleParams", t_xmp_dm_TimeScaleStretch), (elF chars!"xmpDM:timeSignature", t_xmp_dm_TimeSignature),
   (elF chars!"xmpDM:trackNumber", g_int), (elF chars!"xmpDM:Tracks", t_xmp_dm_TrackArray),
   (elF chars!"xmpDM:videoAlphaMode", t_xmp_dm_AlphaMode),
   (elF chars!"xmpDM:videoAlphaPremultipleColor", t_xmp_tpg_Colorant),
   (elF chars!"xmpDM:videoAlphaUnityIsTransparent", t_xmp_Bool), (elF chars!"xmpDM:videoColorSpace", t_xmp_dm_ColorSpace),
   (elF chars!"xmpDM:videoCompressor", g_string), (elF chars!"xmpDM:videoFieldOrder", t_xmp_dm_FieldOrder),
   (elF chars!"xmpDM:videoFrameRate", t_xmp_dm_VideoFrameRate), (elF chars!"xmpDM:videoFrameSize", t_xmp_tpg_Dimensions),
   (elF chars!"xmpDM:videoPixelDepth", t_xmp_dm_PixelDepth), (elF chars!"xmpDM:videoPixelAspectRatio", t_xmp_Rational),
   (elF chars!"xmpDM:partOfCompilation", t_xmp_Bool), (elF chars!"xmpDM:lyrics", g_string),
   (elF chars!"xmpDM:discNumber", g_int), (elF chars!"xmpDM:startTimeScale", g_int),
   (elF chars!"xmpDM:startTimeSampleSize", g_int)]

/-- xmp/xmp_types.go:466 (methods: 476, 480, 468). -/
def t_xmp_UriArray : Sk := .list chars!"xmp.UriArray" { marshal := .array .unordered, unmarshal := .array .unordered, zero := .plain } t_xmp_Uri

/-- xmp/xmp_types.go:308 (methods: 360, 351, 355, 325). -/
def t_xmp_GUID : Sk := .leaf chars!"xmp.GUID" { marshal := .text, toText := true, ofText := true, zero := .plain } .str

/-- models/xmp_dm/types.go:36-40 (methods: 67, 111, 75, 63). -/
def t_xmp_dm_Part : Sk := st chars!"xmp_dm.Part" { marshal := .fields, toText := true, ofText := true, zero := .own }
  [(elF chars!"Path", g_string), (elF chars!"Start", t_xmp_dm_FrameCount), (elF chars!"Duration", t_xmp_dm_FrameCount)]

/-- models/xmp_dm/types.go:172. -/
def t_xmp_dm_MaskType : Sk := .leaf chars!"xmp_dm.MaskType" {} .str

/-- models/xmp_dm/enum.go:18. -/
def t_xmp_dm_RenditionClass : Sk := .leaf chars!"xmp_dm.RenditionClass" {} .str

/-- models/xmp_mm/types.go:24-42 (methods: 63, 44). -/
def t_xmp_mm_ResourceRef : Sk := st chars!"xmp_mm.ResourceRef" { marshal := .fields, zero := .own }
  [(elF chars!"stRef:alternatePaths", t_xmp_UriArray), (atF chars!"stRef:originalDocumentID", t_xmp_GUID),
   (atF chars!"stRef:documentID", t_xmp_GUID), (atF chars!"stRef:filePath", t_xmp_Uri),
   (atF chars!"stRef:fromPart", .ptr t_xmp_dm_Part), (atF chars!"stRef:instanceID", t_xmp_GUID),
   (atF chars!"stRef:lastModifyDate", t_xmp_Date), (atF chars!"stRef:manager", t_xmp_AgentName),
   (atF chars!"stRef:managerVariant", g_string), (atF chars!"stRef:manageTo", t_xmp_Uri),
   (atF chars!"stRef:manageUI", t_xmp_Uri), (atF chars!"stRef:maskMarkers", t_xmp_dm_MaskType),
   (atF chars!"stRef:partMapping", g_string), (atF chars!"stRef:renditionClass", t_xmp_dm_RenditionClass),
   (atF chars!"stRef:renditionParams", g_string), (atF chars!"stRef:toPart", .ptr t_xmp_dm_Part),
   (atF chars!"stRef:versionID", g_string)]

/-- models/xmp_mm/types.go:148. -/
def t_xmp_mm_ActionType : Sk := .leaf chars!"xmp_mm.ActionType" {} .str

/-- models/xmp_dm/types.go:129 (methods: 159, 146). -/
def t_xmp_dm_PartList : Sk := .list chars!"xmp_dm.PartList" { toText := true, ofText := true } t_xmp_dm_Part

/-- models/xmp_mm/types.go:125-132. -/
def t_xmp_mm_ResourceEvent : Sk := st chars!"xmp_mm.ResourceEvent" {}
  [(atF chars!"stEvt:action", t_xmp_mm_ActionType), (atF chars!"stEvt:changed", t_xmp_dm_PartList),
   (atF chars!"stEvt:instanceID", t_xmp_GUID), (atF chars!"stEvt:parameters", g_string),
   (atF chars!"stEvt:softwareAgent", t_xmp_AgentName), (atF chars!"stEvt:when", t_xmp_Date)]

/-- models/xmp_mm/types.go:134 (methods: 140, 144). -/
def t_xmp_mm_ResourceEventArray : Sk := .list chars!"xmp_mm.ResourceEventArray" { marshal := .array .ordered, unmarshal := .array .ordered } (.ptr t_xmp_mm_ResourceEvent)

/-- models/xmp_mm/types.go:71 (methods: 93, 97). -/
def t_xmp_mm_ResourceRefArray : Sk := .list chars!"xmp_mm.ResourceRefArray" { marshal := .array .unordered, unmarshal := .array .unordered } (.ptr t_xmp_mm_ResourceRef)

/-- xmp/xmp_ext.go:113 (methods: 119, 137).  Not described further. -/
def t_xmp_ExtensionArray : Sk := .leaf chars!"xmp.ExtensionArray" { marshal := .other, unmarshal := .other } .time

/-- models/xmp_mm/types.go:102-108. -/
def t_xmp_mm_StVersion : Sk := st chars!"xmp_mm.StVersion" {}
  [(atF chars!"stVer:comments", g_string), (elF chars!"stVer:event", t_xmp_mm_ResourceEvent),
   (atF chars!"stVer:modifier", g_string), (atF chars!"stVer:modifyDate", t_xmp_Date), (atF chars!"stVer:version", g_string)]

/-- models/xmp_mm/types.go:110 (methods: 116, 120). -/
def t_xmp_mm_StVersionArray : Sk := .list chars!"xmp_mm.StVersionArray" { marshal := .array .unordered, unmarshal := .array .unordered } (.ptr t_xmp_mm_StVersion)

/-- models/xmp_mm/model.go:58-75. -/
def t_xmp_mm_XmpMM : Sk := st chars!"xmp_mm.XmpMM" {}
  [(elF chars!"xmpMM:DerivedFrom", .ptr t_xmp_mm_ResourceRef), (elF chars!"xmpMM:DocumentID", t_xmp_GUID),
   (elF chars!"xmpMM:History", t_xmp_mm_ResourceEventArray), (elF chars!"xmpMM:Ingredients", t_xmp_mm_ResourceRefArray),
   (elF chars!"xmpMM:InstanceID", t_xmp_GUID), (elF chars!"xmpMM:ManagedFrom", .ptr t_xmp_mm_ResourceRef),
   (elF chars!"xmpMM:Manager", t_xmp_AgentName), (elF chars!"xmpMM:ManageTo", t_xmp_Uri),
   (elF chars!"xmpMM:ManageUI", t_xmp_Uri), (elF chars!"xmpMM:ManagerVariant", g_string),
   (elF chars!"xmpMM:OriginalDocumentID", t_xmp_GUID), (elF chars!"xmpMM:Pantry", t_xmp_ExtensionArray),
   (elF chars!"xmpMM:RenditionClass", t_xmp_dm_RenditionClass), (elF chars!"xmpMM:RenditionParams", g_string),
   (elF chars!"xmpMM:VersionID", g_string), (elF chars!"xmpMM:Versions", t_xmp_mm_StVersionArray)]

/-- models/xmp_rights/model.go:51-57. -/
def t_xmp_rights_XmpRights : Sk := st chars!"xmp_rights.XmpRights" {}
  [(elF chars!"xmpRights:Certificate", g_string), (elF chars!"xmpRights:Marked", t_xmp_Bool),
   (elF chars!"xmpRights:Owner", t_xmp_StringArray), (elF chars!"xmpRights:UsageTerms", t_xmp_AltString),
   (elF chars!"xmpRights:WebStatement", g_string)]

/-- models/xmp_tpg/types.go:155 (methods: 161, 165). -/
def t_xmp_tpg_ColorantList : Sk := .list chars!"xmp_tpg.ColorantList" { marshal := .array .ordered, unmarshal := .array .ordered } t_xmp_tpg_Colorant

/-- models/xmp_tpg/types.go:86. -/
def t_xmp_tpg_FontType : Sk := .leaf chars!"xmp_tpg.FontType" {} .str

/-- models/xmp_tpg/types.go:75-84. -/
def t_xmp_tpg_Font : Sk := st chars!"xmp_tpg.Font" {}
  [(elF chars!"stFnt:childFontFiles", t_xmp_StringArray), (atF chars!"stFnt:composite", t_xmp_Bool),
   (atF chars!"stFnt:fontFace", g_string), (atF chars!"stFnt:fontFamily", g_string),
   (atF chars!"stFnt:fontFileName", g_string), (atF chars!"stFnt:fontName", g_string),
   (atF chars!"stFnt:fontType", t_xmp_tpg_FontType), (atF chars!"stFnt:versionString", g_string)]

/-- models/xmp_tpg/types.go:94 (methods: 100, 104). -/
def t_xmp_tpg_FontArray : Sk := .list chars!"xmp_tpg.FontArray" { marshal := .array .unordered, unmarshal := .array .unordered } t_xmp_tpg_Font

/-- models/xmp_tpg/types.go:169-173. -/
def t_xmp_tpg_SwatchGroup : Sk := st chars!"xmp_tpg.SwatchGroup" {}
  [(elF chars!"xmpG:groupName", g_string), (elF chars!"xmpG:groupType", g_int),
   (elF chars!"xmpG:Colorants", t_xmp_tpg_ColorantList)]

/-- models/xmp_tpg/types.go:175 (methods: 181, 185). -/
def t_xmp_tpg_SwatchGroupList : Sk := .list chars!"xmp_tpg.SwatchGroupList" { marshal := .array .ordered, unmarshal := .array .ordered } t_xmp_tpg_SwatchGroup

/-- models/xmp_tpg/model.go:56-65. -/
def t_xmp_tpg_PagedText : Sk := st chars!"xmp_tpg.PagedText" {}
  [(elF chars!"xmpTPg:Colorants", t_xmp_tpg_ColorantList), (elF chars!"xmpTPg:Fonts", t_xmp_tpg_FontArray),
   (elF chars!"xmpTPg:MaxPageSize", t_xmp_tpg_Dimensions), (atF chars!"xmpTPg:NPages", g_int64),
   (elF chars!"xmpTPg:PlateNames", t_xmp_StringArray), (elF chars!"xmpTPg:HasVisibleTransparency", t_xmp_Bool),
   (elF chars!"xmpTPg:HasVisibleOverprint", t_xmp_Bool), (elF chars!"xmpTPg:SwatchGroups", t_xmp_tpg_SwatchGroupList)]

/-- The models of the packages, with the names of their types in `Shipped.decls`. -/
def modelTypes : List (Str × Sk) :=
  [(chars!"cc.CC", t_cc_CC),
   (chars!"crs.CameraRawInfo", t_crs_CameraRawInfo),
   (chars!"dc.DublinCore", t_dc_DublinCore),
   (chars!"digikam.Digikam", t_digikam_Digikam),
   (chars!"dji.DJI", t_dji_DJI),
   (chars!"exif.ExifInfo", t_exif_ExifInfo),
   (chars!"exif.ExifEXInfo", t_exif_ExifEXInfo),
   (chars!"exif.ExifAuxInfo", t_exif_ExifAuxInfo),
   (chars!"id3.ID3", t_id3_ID3),
   (chars!"itunes.ITunesMetadata", t_itunes_ITunesMetadata),
   (chars!"ixml.IXML", t_ixml_IXML),
   (chars!"mp4.MP4Info", t_mp4_MP4Info),
   (chars!"pdf.PDFInfo", t_pdf_PDFInfo),
   (chars!"pm.Photomechanic", t_pm_Photomechanic),
   (chars!"ps.PhotoshopInfo", t_ps_PhotoshopInfo),
   (chars!"qt.QtInfo", t_qt_QtInfo),
   (chars!"riff.RiffInfo", t_riff_RiffInfo),
   (chars!"tiff.TiffInfo", t_tiff_TiffInfo),
   (chars!"xmp_base.XmpBase", t_xmp_base_XmpBase),
   (chars!"xmp_bj.JobTicket", t_xmp_bj_JobTicket),
   (chars!"xmp_dm.XmpDM", t_xmp_dm_XmpDM),
   (chars!"xmp_mm.XmpMM", t_xmp_mm_XmpMM),
   (chars!"xmp_rights.XmpRights", t_xmp_rights_XmpRights),
   (chars!"xmp_tpg.PagedText", t_xmp_tpg_PagedText)]

end Xmp.Shipped
