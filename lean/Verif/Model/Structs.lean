import Verif.Model.TypedXmp

/-! Model of the structs of /repo/models with a `MarshalXMP` method of the form

    if x.IsZero() { return nil }
    type _t T
    return e.EncodeElement(_t(x), node)

Values are lists of fields (`Xmp.Val`).  Types with a text form of their own (floating point numbers, dates, identifiers,
parts, `xmp.Bool`) are codecs; enumerations of strings are strings, those of integers are integers.  Agent names and URIs
are strings (URIs as elements do not occur here). -/

namespace Xmp.Structs

open GoStr

/-- A struct type with its `IsZero` method. -/
structure GTy where
  infos : List FieldInfo
  tys : List Ty
  isZero : List Val → Bool

/-- The struct without methods (`type _t T`): it has no `IsZero`. -/
def GTy.plain (g : GTy) : Ty := .struct none g.infos g.tys

/-- `MarshalXMP`: nothing is written for a value that counts as zero. -/
def GTy.write (g : GTy) (vals : List Val) (node : Node) : Option Node :=
  if g.isZero vals then some node else marshalValue g.plain (.struct vals) node

/-- Field `k` is empty. -/
def emptyAt (tys : List Ty) (vals : List Val) (k : Nat) : Bool :=
  match tys[k]?, vals[k]? with
  | some t, some v => isEmptyValue t v
  | _, _ => true

/-- An `IsZero` that tests the fields `ks`, all of which must be empty. -/
def testAll (tys : List Ty) (ks : List Nat) (vals : List Val) : Bool := ks.all (emptyAt tys vals)

/-- An attribute field. -/
def attr (name : String) : FieldInfo := { name := name.toList, attr := true }

/-- An element field. -/
def elem (name : String) : FieldInfo := { name := name.toList }

/-- The codecs of the types with a text form. -/
structure Codecs where
  float : Codec
  bool : Codec
  guid : Codec
  date : Codec
  part : Codec
  bytes : Codec

variable (c : Codecs)

/-- models/xmp_bj/types.go:23-39 `Job`. -/
def job : GTy :=
  let tys := [.str, .str, .str]
  ⟨[attr "stJob:id", attr "stJob:name", attr "stJob:url"], tys, testAll tys [0, 1, 2]⟩

/-- models/xmp_base/types.go:169-187 `Thumbnail`: format, width, height, image. -/
def thumbnail : GTy :=
  let tys := [.str, .int 64, .int 64, .bytes]
  ⟨[elem "xmpGImg:format", elem "xmpGImg:height", elem "xmpGImg:width", elem "xmpGImg:image"], tys, testAll tys [0, 1, 2, 3]⟩

/-- models/xmp_base/types.go:206-232 `Area`: x, y, w, h, d, unit. -/
def area : GTy :=
  let tys := [.text c.float, .text c.float, .text c.float, .text c.float, .text c.float, .str]
  ⟨[attr "stArea:x", attr "stArea:y", attr "stArea:w", attr "stArea:h", attr "stArea:d", attr "stArea:unit"], tys,
    testAll tys [0, 1, 2, 3, 4, 5]⟩

/-- models/xmp_tpg/types.go:46-62 `Dimensions`: h, w, unit. -/
def dimensions : GTy :=
  let tys := [.text c.float, .text c.float, .str]
  ⟨[attr "stDim:h", attr "stDim:w", attr "stDim:unit"], tys, testAll tys [0, 1, 2]⟩

/-- models/xmp_tpg/types.go:109-138 `Colorant`, the fields in the order of the struct. -/
def colorant : GTy :=
  let tys := [.int 64, .int 64, .text c.float, .text c.float, .text c.float, .text c.float, .text c.float, .int 64, .int 64,
    .int 64, .str, .str, .str]
  ⟨[attr "xmpG:A", attr "xmpG:B", attr "xmpG:L", attr "xmpG:black", attr "xmpG:cyan", attr "xmpG:magenta", attr "xmpG:yellow",
    attr "xmpG:blue", attr "xmpG:green", attr "xmpG:red", attr "xmpG:mode", attr "xmpG:swatchName", attr "xmpG:type"], tys,
    testAll tys [0, 1, 2, 3, 4, 5, 6, 7, 8, 9, 10, 12, 11]⟩

/-- models/xmp_mm/types.go:24-69 `ResourceRef`, the fields in the order of the struct; field 10 is `ManageUI`. -/
def resourceRef : GTy :=
  let tys := [.slice .unordered .str, .text c.guid, .text c.guid, .str, .ptr (.text c.part), .text c.guid, .text c.date, .str, .str,
    .str, .str, .str, .str, .str, .str, .ptr (.text c.part), .str]
  ⟨[elem "stRef:alternatePaths", attr "stRef:originalDocumentID", attr "stRef:documentID", attr "stRef:filePath",
    attr "stRef:fromPart", attr "stRef:instanceID", attr "stRef:lastModifyDate", attr "stRef:manager", attr "stRef:managerVariant",
    attr "stRef:manageTo", attr "stRef:manageUI", attr "stRef:maskMarkers", attr "stRef:partMapping", attr "stRef:renditionClass",
    attr "stRef:renditionParams", attr "stRef:toPart", attr "stRef:versionID"], tys,
    testAll tys [0, 1, 2, 3, 4, 5, 6, 7, 8, 9, 11, 12, 13, 14, 15, 16]⟩

/-- models/exif/types.go:211-219, 254-260 `CFAPattern`:
zero if there are no columns or no rows. -/
def cfaPattern : GTy :=
  let tys := [.int 64, .int 64, .text c.bytes]
  ⟨[elem "exif:Columns", elem "exif:Rows", elem "exif:Values"], tys, fun vals => emptyAt tys vals 0 || emptyAt tys vals 1⟩

/-- models/exif/types.go:262-270, 301-307 `DeviceSettings`. -/
def deviceSettings : GTy :=
  let tys := [.int 64, .int 64, .slice .unordered .str]
  ⟨[elem "exif:Columns", elem "exif:Rows", elem "exif:Values"], tys, fun vals => emptyAt tys vals 0 || emptyAt tys vals 1⟩

/-- models/exif/types.go:309-319, 337-343 `Flash`: fired, function, mode, red eye mode, return; all fields are to be
written even if they are empty. -/
def flash : GTy :=
  let tys := [.text c.bool, .text c.bool, .int 64, .text c.bool, .int 64]
  ⟨[{ attr "exif:Fired" with empty := true }, { attr "exif:Function" with empty := true }, { attr "exif:Mode" with empty := true },
    { attr "exif:RedEyeMode" with empty := true }, { attr "exif:Return" with empty := true }], tys, testAll tys [0, 1, 2, 3, 4]⟩

end Xmp.Structs
