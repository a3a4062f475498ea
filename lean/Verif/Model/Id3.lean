import Verif.Model.Codec
import Verif.Model.GoTime
import Verif.Model.AltString
import Verif.Model.TypeInfo

/-! Model of models/id3: genres, dates, times and numbers of ID3 tags as text, names of tags in older versions, and the
exchange with the properties of other schemas (models/id3/model.go:87-224). -/

namespace Xmp.Id3

open GoStr

/-! ### Genres -/

/-- models/id3/enum.go:62-256, 258-452 `GenreMap`: numbers and names of genres. -/
def genreMap : List (Nat × Str) := [
  (0, "Blues"), (1, "Classic Rock"), (2, "Country"), (3, "Dance"), (4, "Disco"), (5, "Funk"), (6, "Grunge"),
  (7, "Hip-Hop"), (8, "Jazz"), (9, "Metal"), (10, "New Age"), (11, "Oldies"), (12, "Other"), (13, "Pop"),
  (14, "R&B"), (15, "Rap"), (16, "Reggae"), (17, "Rock"), (18, "Techno"), (19, "Industrial"), (20, "Alternative"),
  (21, "Ska"), (22, "Death Metal"), (23, "Pranks"), (24, "Soundtrack"), (25, "Euro-Techno"), (26, "Ambient"),
  (27, "Trip-Hop"), (28, "Vocal"), (29, "Jazz+Funk"), (30, "Fusion"), (31, "Trance"), (32, "Classical"),
  (33, "Instrumental"), (34, "Acid"), (35, "House"), (36, "Game"), (37, "Sound Clip"), (38, "Gospel"), (39, "Noise"),
  (40, "Alt. Rock"), (41, "Bass"), (42, "Soul"), (43, "Punk"), (44, "Space"), (45, "Meditative"),
  (46, "Instrumental Pop"), (47, "Instrumental Rock"), (48, "Ethnic"), (49, "Gothic"), (50, "Darkwave"),
  (51, "Techno-Industrial"), (52, "Electronic"), (53, "Pop-Folk"), (54, "Eurodance"), (55, "Dream"),
  (56, "Southern Rock"), (57, "Comedy"), (58, "Cult"), (59, "Gangsta Rap"), (60, "Top 40"), (61, "Christian Rap"),
  (62, "Pop/Funk"), (63, "Jungle"), (64, "Native American"), (65, "Cabaret"), (66, "New Wave"), (67, "Psychedelic"),
  (68, "Rave"), (69, "Showtunes"), (70, "Trailer"), (71, "Lo-Fi"), (72, "Tribal"), (73, "Acid Punk"),
  (74, "Acid Jazz"), (75, "Polka"), (76, "Retro"), (77, "Musical"), (78, "Rock & Roll"), (79, "Hard Rock"),
  (80, "Folk"), (81, "Folk-Rock"), (82, "National Folk"), (83, "Swing"), (84, "Fast-Fusion"), (85, "Bebob"),
  (86, "Latin"), (87, "Revival"), (88, "Celtic"), (89, "Bluegrass"), (90, "Avantgarde"), (91, "Gothic Rock"),
  (92, "Progressive Rock"), (93, "Psychedelic Rock"), (94, "Symphonic Rock"), (95, "Slow Rock"), (96, "Big Band"),
  (97, "Chorus"), (98, "Easy Listening"), (99, "Acoustic"), (100, "Humour"), (101, "Speech"), (102, "Chanson"),
  (103, "Opera"), (104, "Chamber Music"), (105, "Sonata"), (106, "Symphony"), (107, "Booty Bass"), (108, "Primus"),
  (109, "Porn Groove"), (110, "Satire"), (111, "Slow Jam"), (112, "Club"), (113, "Tango"), (114, "Samba"),
  (115, "Folklore"), (116, "Ballad"), (117, "Power Ballad"), (118, "Rhythmic Soul"), (119, "Freestyle"),
  (120, "Duet"), (121, "Punk Rock"), (122, "Drum Solo"), (123, "A Capella"), (124, "Euro-House"),
  (125, "Dance Hall"), (126, "Goa"), (127, "Drum & Bass"), (128, "Club-House"), (129, "Hardcore"), (130, "Terror"),
  (131, "Indie"), (132, "BritPop"), (133, "Afro Punk"), (134, "Polsk Punk"), (135, "Beat"),
  (136, "Christian Gangsta"), (137, "Heavy Metal"), (138, "Black Metal"), (139, "Crossover"),
  (140, "Contemporary Christian"), (141, "Christian Rock"), (142, "Merengue"), (143, "Salsa"), (144, "Thrash Metal"),
  (145, "Anime"), (146, "JPop"), (147, "SynthPop"), (148, "Abstract"), (149, "Art Rock"), (150, "Baroque"),
  (151, "Bhangra"), (152, "Big Beat"), (153, "Breakbeat"), (154, "Chillout"), (155, "Downtempo"), (156, "Dub"),
  (157, "EBM"), (158, "Eclectic"), (159, "Electro"), (160, "Electroclash"), (161, "Emo"), (162, "Experimental"),
  (163, "Garage"), (164, "Global"), (165, "IDM"), (166, "Illbient"), (167, "Industro-Goth"), (168, "Jam Band"),
  (169, "Krautrock"), (170, "Leftfield"), (171, "Lounge"), (172, "Math Rock"), (173, "New Romantic"),
  (174, "Nu-Breakz"), (175, "Post-Punk"), (176, "Post-Rock"), (177, "Psytrance"), (178, "Shoegaze"),
  (179, "Space Rock"), (180, "Trop Rock"), (181, "World Music"), (182, "Neoclassical"), (183, "Audiobook"),
  (184, "Audio Theatre"), (185, "Neue Deutsche Welle"), (186, "Podcast"), (187, "Indie Rock"), (188, "G-Funk"),
  (189, "Dubstep"), (190, "Garage Rock"), (191, "Psybient"), (255, "None")].map (fun g => (g.1, g.2.toList))

/-- models/id3/types.go:125-130 `GenreV1.String`; `x` is a byte. -/
def genreText (x : Nat) : Str :=
  match genreMap.find? (fun g => g.1 = x) with
  | some g => g.2
  | none => natToStr x

/-- models/id3/types.go:132-142 `ParseGenreV1`.  The order of the map does not matter because no name occurs twice;
`GenreV1(t)` keeps the lowest byte. -/
def parseGenre (s : Str) : Option Nat :=
  match genreMap.find? (fun g => g.2 = s) with
  | some g => some g.1
  | none => (atoi s).map (fun t => (t % 256).toNat)

/-- Loop body models/id3/types.go:148-162; `value` is the whole text. -/
def genreOf (value v : Str) : Str :=
  match parseGenre (trimSpace v) with
  | some g => genreText g
  | none => if value = "RX".toList then "Remix".toList else if value = "CR".toList then "Cover".toList else value

/-- models/id3/types.go:146-164 `Genre.UnmarshalText`; `old` is the value before. -/
def genresParse (old : List Str) (value : Str) : List Str := old ++ (split ',' value).map (genreOf value)

/-- models/id3/types.go:166-172 `Genre.String`, `Genre.MarshalText`. -/
def genresText (x : List Str) : Str := join ", ".toList x

/-! ### Dates and times of version 2.3 -/

/-- models/id3/types.go:38. -/
def time23Layout : Str := "1504".toList

/-- models/id3/types.go:39. -/
def date23Layout : Str := "0102".toList

/-- models/id3/types.go:63-71 `Time23.UnmarshalText`. -/
def time23Parse (s : Str) : Option GoTime := timeParse time23Layout s

/-- models/id3/types.go:73-78 `Time23.MarshalText`. -/
def time23Text (t : GoTime) : Str := if t.isZero then [] else t.format time23Layout

/-- models/id3/types.go:89-97 `Date23.UnmarshalText`. -/
def date23Parse (s : Str) : Option GoTime := timeParse date23Layout s

/-- models/id3/types.go:99-104 `Date23.MarshalText`. -/
def date23Text (t : GoTime) : Str := if t.isZero then [] else t.format date23Layout

/-! ### Track numbers -/

/-- models/id3/types.go:177-180. -/
structure TrackNum where
  track : Int := 0
  total : Int := 0
deriving DecidableEq, Repr

/-- models/id3/types.go:186-188. -/
def TrackNum.isZero (x : TrackNum) : Bool := x.track = 0 && x.total = 0

/-- models/id3/types.go:190-205 `TrackNum.UnmarshalText`. -/
def trackParse (v : Str) : Option TrackNum :=
  if '/' ∈ v then (Codec.scanSlash v).map (fun r => ⟨r.num, r.den⟩) else (atoi v).map (fun t => ⟨t, 0⟩)

/-- models/id3/types.go:207-216 `TrackNum.MarshalText`. -/
def trackText (x : TrackNum) : Str := if x.total = 0 then itoa x.track else itoa x.track ++ '/' :: itoa x.total

/-! ### Names of tags -/

/-- models/id3/model.go:335-343. -/
def v11Tags : List (Str × Str) := [
  ("0x0003", "TIT2"), ("0x0021", "TPE1"), ("0x003f", "TALB"), ("0x005d", "TYER"), ("0x0061", "COMM"),
  ("0x007d", "TRCK"), ("0x007f", "TCON")].map (fun g => (g.1.toList, g.2.toList))

/-- models/id3/model.go:345-415. -/
def v22Tags : List (Str × Str) := [
  ("BUF", "RBUF"), ("CNT", "PCNT"), ("COM", "COMM"), ("CRA", "AENC"), ("CRM", "ENCR"), ("ETC", "ETCO"),
  ("EQU", "EQU2"), ("GEO", "GEOB"), ("IPL", "TIPL"), ("LNK", "LINK"), ("MCI", "MCDI"), ("MLL", "MLLT"),
  ("PIC", "APIC"), ("POP", "POPM"), ("REV", "RVRB"), ("RVA", "RVA2"), ("SLT", "SYLT"), ("STC", "SYTC"),
  ("TAL", "TALB"), ("TBP", "TBPM"), ("TCM", "TCOM"), ("TCO", "TMED"), ("TCR", "TCOP"), ("TDA", "TDRC"),
  ("TDY", "TDLY"), ("TEN", "TENC"), ("TFT", "TFLT"), ("TIM", "TDRC"), ("TKE", "TKEY"), ("TLA", "TLAN"),
  ("TLE", "TLEN"), ("TMT", "TMED"), ("TOA", "TOPE"), ("TOF", "TOFN"), ("TOL", "TOLY"), ("TOR", "TORY"),
  ("TOT", "TOAL"), ("TP1", "TPE1"), ("TP2", "TPE2"), ("TP3", "TPE3"), ("TP4", "TPE4"), ("TPA", "TPOS"),
  ("TPB", "TPUB"), ("TRC", "TSRC"), ("TRD", "TDRC"), ("TRK", "TRCK"), ("TSI", "TSIZ"), ("TSS", "TSSE"),
  ("TT1", "TIT1"), ("TT2", "TIT2"), ("TT3", "TIT3"), ("TXT", "TEXT"), ("TXX", "TXXX"), ("TYE", "TYER"),
  ("UFI", "UFID"), ("ULT", "USLT"), ("WAF", "WOAF"), ("WAR", "WOAR"), ("WAS", "WOAS"), ("WCM", "WCOM"),
  ("WCP", "WCOP"), ("WPB", "WPUB"), ("WXX", "WXXX"), ("TCP", "TCMP"), ("TST", "TSOT"), ("TS2", "TSO2"),
  ("TSA", "TSOA"), ("TSP", "TSOP"), ("TSC", "TSOC")].map (fun g => (g.1.toList, g.2.toList))

/-- models/id3/model.go:417-433 `mapTagToV24`. -/
def mapTag (tag : Str) : Option Str :=
  if tag.length > 4 then v11Tags.lookup tag
  else if tag.length < 4 then v22Tags.lookup tag
  else some tag

/-! ### Exchange with other schemas -/

/-- The tags of models/id3/model.go:226-333 that are exchanged. -/
structure Tags where
  title : Str := []
  copyright : Str := []
  language : Str := []
  recordingTime : GoTime := {}
  date23 : GoTime := {}
  time23 : GoTime := {}
  year23 : Int := 0
  leadPerformer : Str := []
  album : Str := []
  comments : Str := []
  genres : List Str := []
  track : TrackNum := {}
  compilation : Int := 0
  composer : Str := []
  modifiedBy : Str := []
  disc : TrackNum := {}
  lyrics : List Str := []
  copyrightInfo : Str := []
deriving DecidableEq

/-- The properties of models/dc that are exchanged. -/
structure Dc where
  title : AltString := []
  rights : AltString := []
deriving DecidableEq

/-- The properties of models/xmp_dm that are exchanged. -/
structure Dm where
  artist : Str := []
  album : Str := []
  logComment : Str := []
  genre : Str := []
  trackNumber : Int := 0
  partOfCompilation : Bool := false
  composer : Str := []
  engineer : Str := []
  discNumber : Int := 0
  lyrics : Str := []
deriving DecidableEq

/-- The models of a document that are involved; `base` is `xmp:CreateDate`, `rights` is `xmpRights:WebStatement`. -/
structure Doc where
  dc : Option Dc := none
  base : Option GoTime := none
  dm : Option Dm := none
  rights : Option Str := none
deriving DecidableEq

/-- `if new != "" { old = new }`. -/
def orElse (new old : Str) : Str := if new ≠ [] then new else old

/-- models/id3/model.go:88-95. -/
def fromDc (x : Tags) : Option Dc → Tags
  | none => x
  | some m => { x with
      title := if m.title.length > 0 then m.title.default else x.title
      copyright := if m.rights.length > 0 then m.rights.default else x.copyright }

/-- models/id3/model.go:96-100. -/
def fromBase (x : Tags) : Option GoTime → Tags
  | none => x
  | some t => if t.isZero then x else { x with recordingTime := t }

/-- models/id3/model.go:101-140; reading genres never fails. -/
def fromDm (x : Tags) : Option Dm → Tags
  | none => x
  | some dm => { x with
      leadPerformer := orElse dm.artist x.leadPerformer
      album := orElse dm.album x.album
      comments := orElse dm.logComment x.comments
      genres := if dm.genre ≠ [] then genresParse x.genres dm.genre else x.genres
      track := if dm.trackNumber > 0 then { track := dm.trackNumber } else x.track
      compilation := if dm.partOfCompilation then 1 else 0
      composer := orElse dm.composer x.composer
      modifiedBy := orElse dm.engineer x.modifiedBy
      disc := if dm.discNumber > 0 then { track := dm.discNumber } else x.disc
      lyrics := if dm.lyrics ≠ [] then split '\n' dm.lyrics else x.lyrics }

/-- models/id3/model.go:141-145. -/
def fromRights (x : Tags) : Option Str → Tags
  | none => x
  | some w => if w ≠ [] then { x with copyrightInfo := w } else x

/-- models/id3/model.go:87-148 `SyncFromXMP`. -/
def syncFrom (x : Tags) (d : Doc) : Tags := fromRights (fromDm (fromBase (fromDc x d.dc) d.base) d.dm) d.rights

/-- models/id3/model.go:154-166: dc gets title and copyright. -/
def syncDc (x : Tags) (dc : Option Dc) : Option Dc :=
  if x.title ≠ [] ∨ x.copyright ≠ [] then
    let m := dc.getD {}
    some { m with
      title := if x.title ≠ [] ∧ m.title.length = 0 then m.title.addDefault x.language x.title else m.title
      rights := if x.copyright ≠ [] ∧ m.rights.length = 0 then m.rights.addDefault x.language x.copyright else m.rights }
  else dc

/-- models/id3/model.go:182-215: xmpDM is always created. -/
def syncDm (x : Tags) (dm : Option Dm) : Dm :=
  let m := dm.getD {}
  { m with
    logComment := orElse x.comments m.logComment
    album := orElse x.album m.album
    partOfCompilation := x.compilation = 1
    composer := orElse x.composer m.composer
    genre := if x.genres.length > 0 then genresText x.genres else m.genre
    artist := orElse x.leadPerformer m.artist
    engineer := orElse x.modifiedBy m.engineer
    discNumber := if x.disc.isZero then m.discNumber else x.disc.track
    trackNumber := if x.track.isZero then m.trackNumber else x.track.track
    lyrics := if x.lyrics.length > 0 then join ['\n'] x.lyrics else m.lyrics }

/-- models/id3/model.go:150-224 `SyncToXMP`.  `panic` is the call of `time.Date` without a location (line 172), which
panics. -/
def syncTo (x : Tags) (d : Doc) : Res Doc :=
  if x.recordingTime.isZero ∧ !x.date23.isZero ∧ !x.time23.isZero then .panic
  else .ok {
    dc := syncDc x d.dc
    base := if x.recordingTime.isZero then d.base else some x.recordingTime
    dm := some (syncDm x d.dm)
    rights := if x.copyrightInfo ≠ [] then some x.copyrightInfo else d.rights }

end Xmp.Id3
