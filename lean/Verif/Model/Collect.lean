import Mathlib.Data.Nat.Pairing
import Verif.Model.DocPath
import Verif.Model.Identifier

/-! Model of how identifiers are collected from the models of a document: models/xmp_base/model.go:59-115. -/

namespace Xmp.Collect

open GoStr SyncFlags

/-! ### Identifiers as values with a text form -/

/-- A number for a string; strings of Go values with a text form are numbered (`Codec`). -/
def strNum : Str → Nat
  | [] => 0
  | c :: s => Nat.pair c.toNat (strNum s) + 1

/-- The string with a number. -/
def strOf : Nat → Str
  | 0 => []
  | n + 1 => Char.ofNat (Nat.unpair n).1 :: strOf (Nat.unpair n).2
termination_by n => n
decreasing_by exact Nat.lt_succ_of_le (Nat.unpair_right_le n)

/-- The number of an identifier; the zero value has the number 0. -/
def idNum (x : Identifier) : Nat := Nat.pair (strNum x.id) (strNum x.scheme)

/-- The identifier with a number. -/
def idOf (n : Nat) : Identifier := ⟨strOf (Nat.unpair n).1, strOf (Nat.unpair n).2⟩

/-- models/xmp_base/types.go:98-111: `Identifier` as a type with `MarshalText` and `UnmarshalText`.  The bytes of a
buffer to which nothing was written are nil.  The type has no `IsZero` method, so no struct counts as empty
(xmp/marshal.go:497-517). -/
def idCodec : Codec where
  enc n := some (if (idOf n).text = [] then none else some (idOf n).text)
  dec n s := some (idNum ((idOf n).ofText s))
  empty _ := false
  hasIsZero := false

/-! ### The model -/

/-- models/xmp_base/model.go:59-72: the fields of `XmpBase`.  `Extensions` is not modelled. -/
def baseInfos : List FieldInfo :=
  ["xmp:Advisory", "xmp:BaseURL", "xmp:CreateDate", "xmp:CreatorTool", "xmp:Identifier", "xmp:Label", "xmp:MetadataDate",
    "xmp:ModifyDate", "xmp:Nickname", "xmp:Rating", "xmp:Thumbnails"].map fun s => { name := s.toList }

/-- models/xmp_base/model.go:59-72: the types of the fields; `date` stands for `xmp.Date`. -/
def baseTys (date : Codec) : List Ty :=
  [.slice .unordered .str, .str, .text date, .str, .slice .unordered (.text idCodec), .str, .text date, .text date, .str,
    .int 64, .slice .alternative thumbnailTy]

/-- models/xmp_base/model.go:59-72 `XmpBase`. -/
def baseTy (date : Codec) : Ty := .struct none baseInfos (baseTys date)

/-- models/xmp_base/model.go:82-86 `prefixer`. -/
def prefixer (pfx : String) (val : Str) : Str := join [':'] [pfx.toList, val]

/-- One entry of models/xmp_base/model.go:89-106. -/
def desc (source : String) (f : Option (Str → Str)) : XDoc.SyncDesc :=
  ⟨source.toList, "xmp:Identifier".toList, MERGE, f⟩

/-- models/xmp_base/model.go:88-111 `identifierDesc`. -/
def identifierDesc : List XDoc.SyncDesc :=
  [desc "trim:Asset/UUID" none,
    desc "exif:ImageUniqueID" (some (prefixer "uuid:exif")),
    desc "arri:UUID" (some (prefixer "uuid:arri")),
    desc "arri:SMPTE_UMID" (some (prefixer "umid:smpte")),
    desc "iXML:fileUid" (some (prefixer "uuid:ixml")),
    desc "qt:mdta/ContentIdentifier" (some (prefixer "uuid:cid")),
    desc "iTunes:StoreFrontID" (some (prefixer "uuid:sfid")),
    desc "qt:GUID" (some (prefixer "uuid:guid")),
    desc "qt:ISRCCode" (some (prefixer "uuid:isrc")),
    desc "qt:ContentID" (some (prefixer "uuid:cid")),
    desc "qt:ClipID" (some (prefixer "uuid:clipid")),
    desc "qt:proapps/ClipID" (some (prefixer "uuid:clipid")),
    desc "bext:umid" (some (prefixer "umid:smpte")),
    desc "id3:podcastID" (some (prefixer "uuid:podcast")),
    desc "id3:uniqueFileIdentifier" (some (prefixer "uuid:id3")),
    desc "GettyImagesGIFT:AssetID" (some (prefixer "uuid:getty")),
    desc "Iptc4xmpExt:DigImageGUID" (some (prefixer "uuid:iptc")),
    desc "mxf:PackageID" (some (prefixer "umid:smpte"))]

/-- models/xmp_base/model.go:113-115 `SyncModel` of the model at position `i`. -/
def syncModel (env : Env) (d : XDoc) (i : Nat) : XDoc × SetRes := d.syncMulti env (some i) identifierDesc

/-- models/qt/model.go:75-88 `QtInfo`: the fields with an XMP name. -/
def qtInfos : List FieldInfo :=
  ["qt:udta", "qt:mdta", "qt:player", "qt:proapps", "qt:extension"].map fun s => { name := s.toList }

end Xmp.Collect
