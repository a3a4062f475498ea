import Verif.Model.Native

/-! Model of the tags of QuickTime files, models/qt/model.go:60-295: a tag is passed on to one of four parts by its length
or its beginning. -/

namespace Xmp.Qt

open Xmp Xmp.GoStr

/-- A tag that begins with the copyright sign.  Struct tags are UTF-8, where this sign has two bytes. -/
def copyTag (s : String) : Str := '\u00c2' :: '\u00a9' :: s.toList

/-- models/qt/qt_userdata.go:28-166: the `qt` tags of `QtUserdata`. -/
def udtaNames : List Str :=
  [copyTag "alb", copyTag "arg", copyTag "ART", copyTag "aut", copyTag "chp", copyTag "cmt", copyTag "com",
   copyTag "cpy", copyTag "day", copyTag "des", copyTag "dir", copyTag "dis", copyTag "enc", copyTag "nam",
   copyTag "gen", copyTag "hst", copyTag "inf", copyTag "key", copyTag "mak", copyTag "mod", copyTag "ope",
   copyTag "fmt", copyTag "src", copyTag "prf", copyTag "prd", copyTag "pub", copyTag "PRD", copyTag "swr",
   copyTag "req", copyTag "trk", copyTag "wrn", copyTag "wrt", copyTag "url", copyTag "xyz", "tnam".toList,
   copyTag "phg", "name".toList, "tagc".toList, "rldt".toList, "clfn".toList, "clid".toList, "cdis".toList,
   "ccid".toList, "date".toList, copyTag "grp", "GUID".toList, copyTag "isr", "albr".toList, "angl".toList,
   copyTag "ark", "tags".toList, "cmid".toList, "manu".toList, "modl".toList, "cmnm".toList, "slno".toList,
   "chpl".toList, copyTag "cok", copyTag "ed1", copyTag "ed2", copyTag "ed3", copyTag "ed4", copyTag "ed5",
   copyTag "ed6", copyTag "ed7", copyTag "ed8", copyTag "ed9", copyTag "mdl", copyTag "mal", copyTag "lyr",
   "lrcu".toList, "orif".toList, "oris".toList, copyTag "prk", copyTag "prl", copyTag "pdk", "VERS".toList,
   copyTag "lab", copyTag "lal", "reel".toList, "scen".toList, "shot".toList, copyTag "swf", copyTag "swk",
   copyTag "snm", copyTag "snk", "ldes".toList, copyTag "nak", "covr".toList, "coll".toList, "rtng".toList,
   "yrrc".toList, "apmd".toList, copyTag "fpt", copyTag "frl", copyTag "xsp", copyTag "ysp", copyTag "zsp",
   copyTag "fyw", copyTag "gpt", copyTag "grl", copyTag "gyw", "hnti".toList, "hinf".toList, "hinv".toList,
   "ptv ".toList, "kgtt".toList, "WLOC".toList, "gshh".toList, "gspm".toList, "gspu".toList, "gssd".toList,
   "gsst".toList, "gstd".toList, "CNCV".toList, "CNMN".toList, "CNFV".toList, "CNDA".toList]

/-- models/qt/qt_metadata.go:41-112: the `qt` tags of `QtMetadata` other than the one of line 107, which takes all names.  (Most
fields have two `qt` tags, of which `reflect` sees the first.) -/
def mdtaNames : List Str :=
  ["com.apple.quicktime.album".toList, "com.apple.quicktime.arranger".toList, "com.apple.quicktime.artist".toList,
   "com.apple.quicktime.artwork".toList, "com.apple.quicktime.author".toList,
   "com.apple.quicktime.camera.framereadouttimeinmicroseconds".toList, "com.apple.quicktime.camera.identifier".toList,
   "com.apple.quicktime.collection.user".toList, "com.apple.quicktime.comment".toList,
   "com.apple.quicktime.composer".toList, "com.apple.quicktime.content.identifier".toList,
   "com.apple.quicktime.copyright".toList, "com.apple.quicktime.creationdate".toList,
   "com.apple.quicktime.credits".toList, "com.apple.quicktime.description".toList,
   "com.apple.quicktime.direction.facing".toList, "com.apple.quicktime.direction.motion".toList,
   "com.apple.quicktime.director".toList, "com.apple.quicktime.displayname".toList,
   "com.apple.quicktime.encodedby".toList, "com.apple.quicktime.genre".toList,
   "com.apple.quicktime.information".toList, "com.apple.quicktime.keywords".toList,
   "com.apple.quicktime.location.body".toList, "com.apple.quicktime.location.date".toList,
   "com.apple.quicktime.location.iso6709".toList, "com.apple.quicktime.location.name".toList,
   "com.apple.quicktime.location.note".toList, "com.apple.quicktime.location.role".toList,
   "com.apple.quicktime.make".toList, "com.apple.quicktime.model".toList, "com.apple.quicktime.originalartist".toList,
   "com.apple.quicktime.performer".toList, "com.apple.quicktime.phonogramrights".toList,
   "com.apple.quicktime.producer".toList, "com.apple.quicktime.publisher".toList,
   "com.apple.quicktime.rating.user".toList, "com.apple.quicktime.software".toList,
   "com.apple.quicktime.title".toList, "com.apple.quicktime.year".toList, "com.apple.quicktime.version".toList,
   "com.apple.quicktime.preferred-affine-transform".toList, "com.apple.quicktime.video-orientation".toList,
   "com.apple.quicktime.windowlocation".toList, "com.apple.quicktime.core-motion".toList,
   "com.apple.quicktime.camera-debug-info".toList, "com.apple.quicktime.is-montage".toList,
   "com.apple.quicktime.pixeldensity".toList, "com.apple.quicktime.detected-face".toList,
   "com.apple.quicktime.detected-machine-readable-code.EAN13".toList,
   "com.apple.quicktime.detected-machine-readable-code.EAN8".toList,
   "com.apple.quicktime.detected-machine-readable-code.UPCE".toList,
   "com.apple.quicktime.detected-machine-readable-code.Code39".toList,
   "com.apple.quicktime.detected-machine-readable-code.Code39Checksum".toList,
   "com.apple.quicktime.detected-machine-readable-code.Code93".toList,
   "com.apple.quicktime.detected-machine-readable-code.Code128".toList,
   "com.apple.quicktime.detected-machine-readable-code.I2of5".toList,
   "com.apple.quicktime.detected-machine-readable-code.ITF14".toList,
   "com.apple.quicktime.detected-machine-readable-code.DataMatrix".toList,
   "com.apple.quicktime.detected-machine-readable-code.QR".toList,
   "com.apple.quicktime.detected-machine-readable-code.Aztec".toList,
   "com.apple.quicktime.detected-machine-readable-code.PDF417".toList]

/-- models/qt/qt_player.go:22-34: the `qt` tags of `QtPlayer`. -/
def playerNames : List Str :=
  ["com.apple.quicktime.player.movie.audio.balance".toList, "com.apple.quicktime.player.movie.audio.bass".toList,
   "com.apple.quicktime.player.movie.audio.gain".toList, "com.apple.quicktime.player.movie.audio.mute".toList,
   "com.apple.quicktime.player.movie.audio.pitchshift".toList, "com.apple.quicktime.player.movie.audio.treble".toList,
   "com.apple.quicktime.player.movie.visual.brightness".toList,
   "com.apple.quicktime.player.movie.visual.color".toList, "com.apple.quicktime.player.movie.visual.contrast".toList,
   "com.apple.quicktime.player.movie.visual.tint".toList, "com.apple.quicktime.player.version".toList]

/-- models/qt/qt_proapps.go:22-72: the `qt` tags of `QtProApps`. -/
def proAppsNames : List Str :=
  ["com.apple.proapps.clipID".toList, "com.apple.proapps.originalFormat".toList,
   "com.apple.proapps.customcolor".toList, "com.apple.proapps.cameraName".toList,
   "com.apple.proapps.mio.cameraName".toList, "com.apple.proapps.scene".toList, "com.apple.proapps.shot".toList,
   "com.apple.proapps.angle".toList, "com.apple.proapps.logNote".toList, "com.apple.proapps.lastupdatedate".toList,
   "com.apple.proapps.ingestDate.description".toList, "com.apple.proapps.avchd.startTimeCodeFrameCount".toList,
   "com.apple.proapps.avchd.dropFrame".toList, "com.apple.proapps.avchd.videoFrameDuration".toList,
   "com.apple.proapps.share.category".toList, "com.apple.proapps.share.id".toList,
   "com.apple.proapps.share.episodeID".toList, "com.apple.proapps.share.episodeNumber".toList,
   "com.apple.proapps.share.mediaKind".toList, "com.apple.proapps.share.screenWriter".toList,
   "com.apple.proapps.share.seasonNumber".toList, "com.apple.proapps.share.tvNetwork".toList,
   "com.apple.proapps.reel".toList, "com.apple.proapps.cameraID".toList, "com.apple.proapps.manufacturer".toList,
   "com.apple.proapps.modelname".toList, "com.apple.proapps.serialno".toList, "com.apple.proapps.clipFileName".toList,
   "com.apple.proapps.color.asc-cdl".toList, "com.apple.proapps.isGood".toList, "com.apple.proapps.dataSize".toList,
   "com.apple.proapps.displayFormat".toList, "com.apple.proapps.shootingRate".toList,
   "com.apple.proapps.videoBitrate".toList, "com.apple.proapps.pulldown".toList, "com.apple.proapps.mediaRate".toList,
   "com.apple.proapps.timecodeFormat".toList, "com.apple.proapps.numberOfAudioChannels".toList,
   "com.apple.proapps.sampleRate".toList, "com.apple.proapps.bitsPerSample".toList,
   "com.apple.proapps.studio.alphaHandling".toList, "com.apple.proapps.studio.angle".toList,
   "com.apple.proapps.studio.metadataAnamorphicType".toList,
   "com.apple.proapps.studio.metadataDeinterlaceType".toList,
   "com.apple.proapps.studio.metadataFieldDominanceOverride".toList,
   "com.apple.proapps.studio.metadataLocation".toList, "com.apple.proapps.studio.reel".toList,
   "com.apple.proapps.studio.scene".toList, "com.apple.proapps.studio.shot".toList]

/-- The types of the fields of the four parts; those of the table above come first.  The statements hold for any types. -/
structure Types where
  udta : List Ty
  mdta : List Ty
  player : List Ty
  proApps : List Ty

/-- A field with a tag and no options. -/
def plainInfo (n : Str) : FieldInfo := { name := n }

/-- models/qt/qt_metadata.go:107: the field for all other names, a `TagList`. -/
def extensionInfo : FieldInfo := { name := "Extension".toList, any := true }

/-- `TagList`, xmp/native.go:31, a slice of structs of three strings. -/
def tagListTy : Ty := .slice .unordered (.struct none [] [.str, .str, .str])

/-- The struct types of the four parts. -/
def udtaTy (t : Types) : Ty := .struct none (udtaNames.map plainInfo) t.udta
/-- See `udtaTy`. -/
def mdtaTy (t : Types) : Ty := .struct none (mdtaNames.map plainInfo ++ [extensionInfo]) (t.mdta ++ [tagListTy])
/-- See `udtaTy`. -/
def playerTy (t : Types) : Ty := .struct none (playerNames.map plainInfo) t.player
/-- See `udtaTy`. -/
def proAppsTy (t : Types) : Ty := .struct none (proAppsNames.map plainInfo) t.proApps

/-- models/qt/model.go:77-91 `QtInfo`; `none` is a nil pointer.  `I` stands for `ixml.IXML`, `D` for `xmp.Document`. -/
structure Info (I D : Type) where
  udta : Option Val
  mdta : Option Val
  player : Option Val
  proApps : Option Val
  ixml : Option I
  xmp : Option D
  extension : List Tag

/-- models/qt/model.go:73-75 `NewModel`. -/
def Info.new (I D : Type) : Info I D := ⟨none, none, none, none, none, none, []⟩

/-- `GetNativeField` without error, as in models/qt/qt_player.go:56-59 and model.go:178-181 on a new part. -/
def canPart (ty : Ty) (tag : Str) : Bool := (getNative ty ty.zero tag).isSome

/-- The tags of models/qt/model.go:191 and 269 other than `XMP_`. -/
def ixmlTags : List Str := ["iXML".toList, "info.ixml.xml".toList, "info.ixml.metadata".toList, "info.ixml.info".toList]

/-- The beginnings of models/qt/model.go:182-190, 208-233. -/
def playerPrefix : Str := "com.apple.quicktime.player".toList
/-- See `playerPrefix`. -/
def mdtaPrefix : Str := "com.apple.quicktime".toList
/-- See `playerPrefix`. -/
def proAppsPrefix : Str := "com.apple.proapps".toList

/-- models/qt/model.go:176-195 `CanTag`.  The arguments of `HasPrefix` are exchanged. -/
def canTag (t : Types) (tag : Str) : Bool :=
  if tag.length = 4 then canPart (udtaTy t) tag
  else if hasPrefix playerPrefix tag then canPart (playerTy t) tag
  else if hasPrefix mdtaPrefix tag then canPart (mdtaTy t) tag
  else if hasPrefix proAppsPrefix tag then canPart (proAppsTy t) tag
  else decide (tag = "XMP_".toList ∨ tag ∈ ixmlTags)

/-- models/qt/model.go:199-207 and alike: a tag of a part. -/
def getPart (ty : Ty) (p : Option Val) (tag : Str) : Option Str :=
  match p with
  | none => some []
  | some v => getNative ty v tag

/-- models/qt/model.go:197-237 `GetTag`; `none` is an error. -/
def getTag {I D : Type} (t : Types) (x : Info I D) (tag : Str) : Option Str :=
  if tag.length = 4 then getPart (udtaTy t) x.udta tag
  else if hasPrefix tag playerPrefix then getPart (playerTy t) x.player tag
  else if hasPrefix tag mdtaPrefix then getPart (mdtaTy t) x.mdta tag
  else if hasPrefix tag proAppsPrefix then getPart (proAppsTy t) x.proApps tag
  else some []

/-- models/qt/model.go:242-247 and alike: set a tag of a part, which is made first if there is none. -/
def setPart (ty : Ty) (p : Option Val) (tag value : Str) : Option Val × Bool :=
  ((setNative ty (p.getD ty.zero) tag value).1, (setNative ty (p.getD ty.zero) tag value).2)

/-- models/qt/model.go:239-287 `SetTag`: the model after the call, and whether there was no error.  `parseIxml` is
`IXML.ParseXML` on a new value, `parseXmp` is `xmp.Unmarshal` into a new document. -/
def setTag {I D : Type} (t : Types) (parseIxml : Str → Option I) (parseXmp : Str → Option D) (x : Info I D)
    (tag value : Str) : Info I D × Bool :=
  if tag.length = 4 then
    ({ x with udta := (setPart (udtaTy t) x.udta tag value).1 }, (setPart (udtaTy t) x.udta tag value).2)
  else if hasPrefix tag playerPrefix then
    ({ x with player := (setPart (playerTy t) x.player tag value).1 }, (setPart (playerTy t) x.player tag value).2)
  else if hasPrefix tag mdtaPrefix then
    ({ x with mdta := (setPart (mdtaTy t) x.mdta tag value).1 }, (setPart (mdtaTy t) x.mdta tag value).2)
  else if hasPrefix tag proAppsPrefix then
    ({ x with proApps := (setPart (proAppsTy t) x.proApps tag value).1 }, (setPart (proAppsTy t) x.proApps tag value).2)
  else if tag ∈ ixmlTags then
    match parseIxml value with
    | some i => ({ x with ixml := some i }, true)
    | none => (x, false)
  else if tag = "XMP_".toList then
    match parseXmp value with
    | some d => ({ x with xmp := some d }, true)
    | none => (x, false)
  else (x, true)

/-- The struct type of `QtInfo` as its `qt` tags show it, models/qt/model.go:86-90: all other fields have the tag `-`. -/
def infoTy : Ty := .struct none [plainInfo "XMP_".toList, extensionInfo] [.ptr (.struct none [] []), tagListTy]

/-- The fields of `infoTy`. -/
def infoVal {I D : Type} (x : Info I D) : Val :=
  .struct [if x.xmp.isSome then .ptr (.struct []) else .nil,
    .slice (x.extension.map (fun t => .struct [.str t.key, .str t.value, .str t.lang])) []]

/-- models/qt/model.go:289-295 `ListTags`. -/
def listTags {I D : Type} (x : Info I D) : Res (List Tag) := listNative infoTy (infoVal x)

end Xmp.Qt
