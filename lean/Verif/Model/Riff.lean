import Verif.Model.TypeInfo
import Verif.Model.Native
import Verif.Model.AltString

/-! Model of the metadata of RIFF files, models/riff/model.go and models/riff/types.go, and of the way from a struct to its tags,
xmp/native.go with xmp/typeinfo.go. -/

namespace Xmp.Riff

open Xmp Xmp.GoStr

/-- models/riff/model.go:54-145: the fields of `RiffInfo` with their `riffinfo` and `xmp` tags. -/
def fieldTable : List (String × String × String) :=
  [("ArchiveLocation", "IARL", "riffinfo:archivalLocation"), ("Artist", "IART", "xmpDM:artist"),
   ("CommissionedBy", "ICMS", "riffinfo:commissioned"), ("Comments", "ICMT", "xmpDM:logComment"),
   ("Copyright", "ICOP", "dc:rights"), ("CreateDate", "ICRD", "xmp:CreateDate"),
   ("Engineeer", "IENG", "xmpDM:engineer"), ("Genre", "IGNR", "xmpDM:genre"), ("Keywords", "IKEY", "dc:subject"),
   ("SourceMedium", "IMED", "dc:source"), ("Title", "INAM", "riffinfo:name"), ("Product", "IPRD", "riffinfo:product"),
   ("Description", "ISBJ", "dc:description"), ("Software", "ISFT", "xmp:CreatorTool"),
   ("SourceCredit", "ISRC", "riffinfo:source"), ("SourceType", "ISRF", "dc:type"),
   ("Technician", "ITCH", "riffinfo:technician"), ("Rated", "AGES", "riffinfo:Rated"),
   ("Comment", "CMNT", "riffinfo:Comment"), ("EncodedBy", "CODE", "riffinfo:EncodedBy"),
   ("Comments2", "COMM", "riffinfo:Comments"), ("Directory", "DIRC", "riffinfo:Directory"),
   ("SoundSchemeTitle", "DISP", "riffinfo:SoundSchemeTitle"), ("DateTimeOriginal", "DTIM", "riffinfo:DateTimeOriginal"),
   ("Genre2", "GENR", "riffinfo:Genre"), ("ArchivalLocation", "IARL", "riffinfo:ArchivalLocation"),
   ("FirstLanguage", "IAS1", "riffinfo:FirstLanguage"), ("SecondLanguage", "IAS2", "riffinfo:SecondLanguage"),
   ("ThirdLanguage", "IAS3", "riffinfo:ThirdLanguage"), ("FourthLanguage", "IAS4", "riffinfo:FourthLanguage"),
   ("FifthLanguage", "IAS5", "riffinfo:FifthLanguage"), ("SixthLanguage", "IAS6", "riffinfo:SixthLanguage"),
   ("SeventhLanguage", "IAS7", "riffinfo:SeventhLanguage"), ("EighthLanguage", "IAS8", "riffinfo:EighthLanguage"),
   ("NinthLanguage", "IAS9", "riffinfo:NinthLanguage"), ("BaseURL", "IBSU", "riffinfo:BaseURL"),
   ("DefaultAudioStream", "ICAS", "riffinfo:DefaultAudioStream"),
   ("CostumeDesigner", "ICDS", "riffinfo:CostumeDesigner"), ("Commissioned", "ICMS", "riffinfo:Commissioned"),
   ("Cinematographer", "ICNM", "riffinfo:Cinematographer"), ("Country", "ICNT", "riffinfo:Country"),
   ("Cropped", "ICRP", "riffinfo:Cropped"), ("Dimensions", "IDIM", "riffinfo:Dimensions"),
   ("DateTimeOriginal2", "IDIT", "-"), ("DotsPerInch", "IDPI", "riffinfo:DotsPerInch"),
   ("DistributedBy", "IDST", "riffinfo:DistributedBy"), ("EditedBy", "IEDT", "riffinfo:EditedBy"),
   ("EncodedBy2", "IENC", "-"), ("Lightness", "ILGT", "riffinfo:Lightness"), ("LogoURL", "ILGU", "riffinfo:LogoURL"),
   ("LogoIconURL", "ILIU", "riffinfo:LogoIconURL"), ("Language", "ILNG", "riffinfo:Language"),
   ("MoreInfoBannerImage", "IMBI", "riffinfo:MoreInfoBannerImage"),
   ("MoreInfoBannerURL", "IMBU", "riffinfo:MoreInfoBannerURL"), ("MoreInfoText", "IMIT", "riffinfo:MoreInfoText"),
   ("MoreInfoURL", "IMIU", "riffinfo:MoreInfoURL"), ("MusicBy", "IMUS", "riffinfo:MusicBy"),
   ("ProductionDesigner", "IPDS", "riffinfo:ProductionDesigner"), ("NumColors", "IPLT", "riffinfo:NumColors"),
   ("ProducedBy", "IPRO", "riffinfo:ProducedBy"), ("RippedBy", "IRIP", "riffinfo:RippedBy"),
   ("Rating", "IRTD", "riffinfo:Rating"), ("SecondaryGenre", "ISGN", "riffinfo:SecondaryGenre"),
   ("Sharpness", "ISHP", "riffinfo:Sharpness"), ("TimeCode", "ISMP", "riffinfo:TimeCode"),
   ("ProductionStudio", "ISTD", "riffinfo:ProductionStudio"), ("Starring", "ISTR", "riffinfo:Starring"),
   ("WatermarkURL", "IWMU", "riffinfo:WatermarkURL"), ("WrittenBy", "IWRI", "riffinfo:WrittenBy"),
   ("Language2", "LANG", "riffinfo:Language2"), ("Location", "LOCA", "riffinfo:Location"),
   ("Part", "PRT1", "riffinfo:Part"), ("NumberOfParts", "PRT2", "riffinfo:NumberOfParts"),
   ("Rate", "RATE", "riffinfo:Rate"), ("Starring2", "STAR", "-"), ("Statistics", "STAT", "riffinfo:Statistics"),
   ("TapeName", "TAPE", "riffinfo:TapeName"), ("EndTimecode", "TCDO", "riffinfo:EndTimecode"),
   ("StartTimecode", "TCOD", "riffinfo:StartTimecode"), ("Title2", "TITL", "riffinfo:Title"),
   ("Length", "TLEN", "riffinfo:Length"), ("Organization", "TORG", "riffinfo:Organization"),
   ("TrackNumber", "TRCK", "riffinfo:TrackNumber"), ("URL", "TURL", "riffinfo:URL"),
   ("Version", "TVER", "riffinfo:Version"), ("VegasVersionMajor", "VMAJ", "riffinfo:VegasVersionMajor"),
   ("VegasVersionMinor", "VMIN", "riffinfo:VegasVersionMinor"), ("Year", "YEAR", "riffinfo:Year")]

/-- A field of the table for `reflect`. -/
def mkField (r : String × String × String) : GoField :=
  { name := r.1.toList, exported := true, anonymous := false, ty := 1, impls := [],
    tag := fun ns => if ns = "riffinfo".toList then r.2.1.toList else if ns = "xmp".toList then r.2.2.toList else [] }

/-- The fields of `RiffInfo`. -/
def fields : List GoField := fieldTable.map mkField

/-- xmp/typeinfo.go:151-188, the loop over the fields of a struct without embedded structs.  (The loop with embedded structs and the
cache are in Model/TypeInfo.lean.) -/
def structInfo (ns : Str) : List GoField → Nat → TInfo → Res TInfo
  | [], _, acc => .ok acc
  | f :: fs, i, acc =>
    if skipField f ns then structInfo ns fs (i + 1) acc
    else
      match structFieldInfo i f ns with
      | .ok fi =>
        match addFieldInfo acc fi with
        | some acc => structInfo ns fs (i + 1) acc
        | none => .err
      | .err => .err
      | .panic => .panic

/-- The metadata of a field in the form of Model/Native.lean. -/
def toField (f : FInfo) : FieldInfo :=
  { name := f.name, attr := f.attr, empty := f.empty, omitted := f.omitted, any := f.any, minVersion := f.minVersion,
    maxVersion := f.maxVersion }

/-- `GetTag` (e.g. models/riff/model.go:227-233) on a struct with fields `fs` whose types are `tys`: the metadata comes first
(xmp/native.go:353-357); `none` is an error. -/
def getTag (ns : Str) (fs : List GoField) (tys : List Ty) (v : Val) (tag : Str) : Option Str :=
  match structInfo ns fs 0 [] with
  | .ok l => getNative (.struct none (l.map toField) tys) v tag
  | _ => none

/-- `CanTag`, models/riff/model.go:222-225. -/
def canTag (ns : Str) (fs : List GoField) (tys : List Ty) (v : Val) (tag : Str) : Bool := (getTag ns fs tys v tag).isSome

/-- `SetTag`, models/riff/model.go:235-240. -/
def setTag (ns : Str) (fs : List GoField) (tys : List Ty) (v : Val) (tag value : Str) : Val × Bool :=
  match structInfo ns fs 0 [] with
  | .ok l => setNative (.struct none (l.map toField) tys) v tag value
  | _ => (v, false)

/-- `ListTags`, models/riff/model.go:243-249. -/
def listTags (ns : Str) (fs : List GoField) (tys : List Ty) (v : Val) : Res (List Tag) :=
  match structInfo ns fs 0 [] with
  | .ok l => listNative (.struct none (l.map toField) tys) v
  | _ => .err

/-! ### Texts -/

/-- Put a byte in front of the first part. -/
def consHead (c : Char) : List Str → List Str
  | [] => [[c]]
  | p :: ps => (c :: p) :: ps

/-- `strings.Split(s, "; ")`. -/
def splitSemi : Str → List Str
  | [] => [[]]
  | ';' :: ' ' :: r => [] :: splitSemi r
  | c :: r => consHead c (splitSemi r)

/-- models/riff/types.go:28-31 `StringArray.UnmarshalText`: what was there before is replaced. -/
def stringsText (data : Str) : List Str := splitSemi data

/-- The loop of models/riff/types.go:45-47; `none` is a panic. -/
def addEng : AltString → List Str → Option AltString
  | a, [] => some a
  | a, v :: vs =>
    match a.add "eng".toList v with
    | some b => addEng b vs
    | none => none

/-- models/riff/types.go:43-50 `AltString.UnmarshalText`. -/
def altText (data : Str) : Option AltString := addEng [] (splitSemi data)

/-! ### Exchange with other models -/

/-- The fields of `RiffInfo` that take part in the exchange; `T` are the dates, `none` is the zero date. -/
structure Info (T : Type) where
  copyright : AltString
  keywords : List Str
  sourceType : List Str
  description : AltString
  title : AltString
  sourceMedium : Str
  createDate : Option T
  software : Str
  artist : Str
  comments : Str
  genre : Str
  engineer : Str
  dateTimeOriginal : Str
  dateTimeOriginal2 : Str
  encodedBy : Str
  encodedBy2 : Str
  starring : Str
  starring2 : Str

/-- The fields of the Dublin Core model that take part, models/dc/model.go:54-70. -/
structure Dc where
  rights : AltString
  subject : List Str
  type : List Str
  description : AltString
  title : AltString
  source : Str

/-- The fields of the basic model, models/xmp_base/model.go:59-76. -/
structure Base (T : Type) where
  createDate : Option T
  creatorTool : Str

/-- The fields of the dynamic media model, models/xmp_dm/model.go:52-118. -/
structure Dm where
  artist : Str
  logComment : Str
  genre : Str
  engineer : Str

/-- The models of a document; `none` where the document has no such model. -/
structure Doc (T : Type) where
  dc : Option Dc
  base : Option (Base T)
  dm : Option Dm

/-- models/riff/model.go:160-177: what is taken from Dublin Core. -/
def fromDc {T : Type} (x : Info T) : Option Dc → Info T
  | none => x
  | some m =>
    { x with
      copyright := if m.rights ≠ [] then m.rights else x.copyright
      keywords := if m.subject ≠ [] then m.subject else x.keywords
      sourceType := if m.type ≠ [] then m.type else x.sourceType
      description := if m.description ≠ [] then m.description else x.description
      title := if m.title ≠ [] then m.title else x.title
      sourceMedium := m.source }

/-- models/riff/model.go:178-183: what is taken from the basic model. -/
def fromBase {T : Type} (x : Info T) : Option (Base T) → Info T
  | none => x
  | some m =>
    { x with
      createDate := if m.createDate.isSome then m.createDate else x.createDate
      software := m.creatorTool }

/-- models/riff/model.go:184-197: what is taken from the dynamic media model. -/
def fromDm {T : Type} (x : Info T) : Option Dm → Info T
  | none => x
  | some m =>
    { x with
      artist := if m.artist ≠ [] then m.artist else x.artist
      comments := if m.logComment ≠ [] then m.logComment else x.comments
      genre := if m.genre ≠ [] then m.genre else x.genre
      engineer := if m.engineer ≠ [] then m.engineer else x.engineer }

/-- models/riff/model.go:159-199 `SyncFromXMP`. -/
def syncFrom {T : Type} (x : Info T) (d : Doc T) : Info T := fromDm (fromBase (fromDc x d.dc) d.base) d.dm

/-- A second field is used if the first is empty, models/riff/model.go:202-210. -/
def orElse (a b : Str) : Str := if b ≠ [] ∧ a = [] then b else a

/-- A new Dublin Core model. -/
def Dc.new : Dc := ⟨[], [], [], [], [], []⟩

/-- models/riff/model.go:201-220 `SyncToXMP`; the Dublin Core model is made if there is none. -/
def syncTo {T : Type} (x : Info T) (d : Doc T) : Info T × Doc T :=
  let m := d.dc.getD Dc.new
  ({ x with dateTimeOriginal := orElse x.dateTimeOriginal x.dateTimeOriginal2
            encodedBy := orElse x.encodedBy x.encodedBy2
            starring := orElse x.starring x.starring2 },
    { d with dc := some { m with title := if m.title = [] then x.title else m.title } })

end Xmp.Riff
