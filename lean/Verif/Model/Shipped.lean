import Verif.Model.Document

/-! The models shipped with the library (models/*/), as far as the registry and documents see them: which namespaces a
package registers, which models it makes, and its typed access functions `MakeModel` and `FindModel`.  The fields of the
models are not part of this file except for the prefixes used in their `xmp` tags. -/

namespace Xmp.Shipped

open GoStr

/-- A Go type implementing `xmp.Model`: its name, what `Namespaces` returns (always a list of one) and the only prefix for
which `Can` is true. -/
structure Decl where
  typ : Str
  ns : Namespace
  can : Str
deriving DecidableEq, Repr

/-- A package under models/: the packages of models it imports, its calls of `xmp.Register` with the groups, the prefixes
that occur in `xmp` tags of its structs, the number of its factory and the factory `NewModel` (the name of the type of the
model made), its models, and the type and namespace of its functions `MakeModel` and `FindModel` if it has them. -/
structure Pkg where
  name : Str
  imports : List Str
  regs : List (Namespace × List Group)
  used : List Str
  factory : Nat
  newModel : Str → Option Str
  models : List Decl
  typed : Option (Str × Namespace)

/-- xmp/sdk.go:33-38, 53-62: the registrations of the package xmp itself. -/
def coreRegs : List (Namespace × List Group) :=
  [(⟨"x".toList, "adobe:ns:meta/".toList, none⟩, []),
   (⟨"xml".toList, "http://www.w3.org/XML/1998/namespace".toList, none⟩, []),
   (⟨"rdf".toList, "http://www.w3.org/1999/02/22-rdf-syntax-ns#".toList, none⟩, []),
   (⟨"stArea".toList, "http://ns.adobe.com/xmp/sType/Area#".toList, none⟩, [])]

/-- models/cc/model.go:30 (namespaces), 34 (registration), 37 (`NewModel`), 64, 68 (`Namespaces`, `Can`), 41 and 50
(`MakeModel`, `FindModel`).  Prefixes of tags: `cc` (cc/model.go:58). -/
def pkg_cc : Pkg where
  name := "cc".toList
  imports := []
  regs := [(⟨"cc".toList, "http://creativecommons.org/ns#".toList, some 0⟩, ["rights".toList])]
  used := ["cc".toList]
  factory := 0
  newModel := fun _ => some "cc.CC".toList
  models := [⟨"cc.CC".toList, ⟨"cc".toList, "http://creativecommons.org/ns#".toList, some 0⟩, "cc".toList⟩]
  typed := some ("cc.CC".toList, ⟨"cc".toList, "http://creativecommons.org/ns#".toList, some 0⟩)

/-- models/crs/model.go:24 (namespaces), 28 (registration), 31 (`NewModel`), 252, 256 (`Namespaces`, `Can`), 35 and 44
(`MakeModel`, `FindModel`).  Prefixes of tags: `crs` (crs/model.go:53). -/
def pkg_crs : Pkg where
  name := "crs".toList
  imports := []
  regs := [(⟨"crs".toList, "http://ns.adobe.com/camera-raw-settings/1.0/".toList, some 1⟩, ["image".toList])]
  used := ["crs".toList]
  factory := 1
  newModel := fun _ => some "crs.CameraRawInfo".toList
  models := [⟨"crs.CameraRawInfo".toList, ⟨"crs".toList, "http://ns.adobe.com/camera-raw-settings/1.0/".toList, some 1⟩, "crs".toList⟩]
  typed := some ("crs.CameraRawInfo".toList, ⟨"crs".toList, "http://ns.adobe.com/camera-raw-settings/1.0/".toList, some 1⟩)

/-- models/dc/model.go:24 (namespaces), 28 (registration), 31 (`NewModel`), 72, 76 (`Namespaces`, `Can`), 35 and 44
(`MakeModel`, `FindModel`).  Prefixes of tags: `dc` (dc/model.go:55). -/
def pkg_dc : Pkg where
  name := "dc".toList
  imports := []
  regs := [(⟨"dc".toList, "http://purl.org/dc/elements/1.1/".toList, some 2⟩, ["xmp".toList])]
  used := ["dc".toList]
  factory := 2
  newModel := fun _ => some "dc.DublinCore".toList
  models := [⟨"dc.DublinCore".toList, ⟨"dc".toList, "http://purl.org/dc/elements/1.1/".toList, some 2⟩, "dc".toList⟩]
  typed := some ("dc.DublinCore".toList, ⟨"dc".toList, "http://purl.org/dc/elements/1.1/".toList, some 2⟩)

/-- models/digikam/model.go:11 (namespaces), 15 (registration), 18 (`NewModel`), 49, 53 (`Namespaces`, `Can`), 22 and 31
(`MakeModel`, `FindModel`).  Prefixes of tags: `digiKam` (digikam/model.go:39). -/
def pkg_digikam : Pkg where
  name := "digikam".toList
  imports := []
  regs := [(⟨"digiKam".toList, "http://www.digikam.org/ns/1.0/".toList, some 3⟩, ["xmp".toList])]
  used := ["digiKam".toList]
  factory := 3
  newModel := fun _ => some "digikam.Digikam".toList
  models := [⟨"digikam.Digikam".toList, ⟨"digiKam".toList, "http://www.digikam.org/ns/1.0/".toList, some 3⟩, "digiKam".toList⟩]
  typed := some ("digikam.Digikam".toList, ⟨"digiKam".toList, "http://www.digikam.org/ns/1.0/".toList, some 3⟩)

/-- models/dji/dji.go:24 (namespaces), 28 (registration), 31 (`NewModel`), 51, 55 (`Namespaces`, `Can`), 35 and 44
(`MakeModel`, `FindModel`).  Prefixes of tags: `drone-dji` (dji/dji.go:92), `tiff` (dji/dji.go:103). -/
def pkg_dji : Pkg where
  name := "dji".toList
  imports := []
  regs := [(⟨"drone-dji".toList, "http://www.dji.com/drone-dji/1.0/".toList, some 4⟩, ["camera".toList])]
  used := ["drone-dji".toList, "tiff".toList]
  factory := 4
  newModel := fun _ => some "dji.DJI".toList
  models := [⟨"dji.DJI".toList, ⟨"drone-dji".toList, "http://www.dji.com/drone-dji/1.0/".toList, some 4⟩, "drone-dji".toList⟩]
  typed := some ("dji.DJI".toList, ⟨"drone-dji".toList, "http://www.dji.com/drone-dji/1.0/".toList, some 4⟩)

/-- models/exif/model.go:41-43 (namespaces), 49 (registration), 53 (`NewModel`), 254, 258, 439, 443, 506, 510
(`Namespaces`, `Can`), 65 and 74 (`MakeModel`, `FindModel`).  Prefixes of tags: `aux` (exif/model.go:488), `dc`
(exif/model.go:84), `exif` (exif/model.go:115), `exifEX` (exif/model.go:418), `photoshop` (exif/model.go:126), `tiff`
(exif/model.go:83), `xmp` (exif/model.go:90). -/
def pkg_exif : Pkg where
  name := "exif".toList
  imports := ["dc".toList, "ps".toList, "tiff".toList, "xmp_base".toList]
  regs := [(⟨"exif".toList, "http://ns.adobe.com/exif/1.0/".toList, some 5⟩, ["image".toList]), (⟨"exifEX".toList, "http://cipa.jp/exif/1.0/".toList, some 5⟩, ["image".toList]), (⟨"aux".toList, "http://ns.adobe.com/exif/1.0/aux/".toList, some 5⟩, ["image".toList])]
  used := ["aux".toList, "dc".toList, "exif".toList, "exifEX".toList, "photoshop".toList, "tiff".toList, "xmp".toList]
  factory := 5
  newModel := fun n => if n = "exif".toList then some "exif.ExifInfo".toList else if n = "exifEX".toList then some "exif.ExifEXInfo".toList
      else if n = "aux".toList then some "exif.ExifAuxInfo".toList else none
  models := [⟨"exif.ExifInfo".toList, ⟨"exif".toList, "http://ns.adobe.com/exif/1.0/".toList, some 5⟩, "exif".toList⟩, ⟨"exif.ExifEXInfo".toList, ⟨"exifEX".toList, "http://cipa.jp/exif/1.0/".toList, some 5⟩, "exifEX".toList⟩, ⟨"exif.ExifAuxInfo".toList, ⟨"aux".toList, "http://ns.adobe.com/exif/1.0/aux/".toList, some 5⟩, "aux".toList⟩]
  typed := some ("exif.ExifInfo".toList, ⟨"exif".toList, "http://ns.adobe.com/exif/1.0/".toList, some 5⟩)

/-- models/id3/model.go:45 (namespaces), 49 (registration), 52 (`NewModel`), 75, 79 (`Namespaces`, `Can`), 59 and 68
(`MakeModel`, `FindModel`).  Prefixes of tags: `id3` (id3/model.go:227). -/
def pkg_id3 : Pkg where
  name := "id3".toList
  imports := ["dc".toList, "xmp_base".toList, "xmp_dm".toList, "xmp_rights".toList]
  regs := [(⟨"id3".toList, "http://id3.org/ns/2.4/".toList, some 6⟩, ["music".toList])]
  used := ["id3".toList]
  factory := 6
  newModel := fun n => if n = "id3".toList then some "id3.ID3".toList else none
  models := [⟨"id3.ID3".toList, ⟨"id3".toList, "http://id3.org/ns/2.4/".toList, some 6⟩, "id3".toList⟩]
  typed := some ("id3.ID3".toList, ⟨"id3".toList, "http://id3.org/ns/2.4/".toList, some 6⟩)

/-- models/itunes/model.go:27 (namespaces), 31 (registration), 34 (`NewModel`), 54, 58 (`Namespaces`, `Can`), 38 and 47
(`MakeModel`, `FindModel`).  Prefixes of tags: `iTunes` (itunes/model.go:108). -/
def pkg_itunes : Pkg where
  name := "itunes".toList
  imports := []
  regs := [(⟨"iTunes".toList, "http://ns.apple.com/itunes/1.0/".toList, some 7⟩, ["music".toList])]
  used := ["iTunes".toList]
  factory := 7
  newModel := fun _ => some "itunes.ITunesMetadata".toList
  models := [⟨"itunes.ITunesMetadata".toList, ⟨"iTunes".toList, "http://ns.apple.com/itunes/1.0/".toList, some 7⟩, "iTunes".toList⟩]
  typed := some ("itunes.ITunesMetadata".toList, ⟨"iTunes".toList, "http://ns.apple.com/itunes/1.0/".toList, some 7⟩)

/-- models/ixml/model.go:42 (namespaces), 46 (registration), 49 (`NewModel`), 97, 101 (`Namespaces`, `Can`), 55 and 64
(`MakeModel`, `FindModel`).  Prefixes of tags: `iXML` (ixml/model.go:73). -/
def pkg_ixml : Pkg where
  name := "ixml".toList
  imports := ["xmp_dm".toList]
  regs := [(⟨"iXML".toList, "http://ns.adobe.com/ixml/1.0/".toList, some 8⟩, ["sound".toList])]
  used := ["iXML".toList]
  factory := 8
  newModel := fun _ => some "ixml.IXML".toList
  models := [⟨"ixml.IXML".toList, ⟨"iXML".toList, "http://ns.adobe.com/ixml/1.0/".toList, some 8⟩, "iXML".toList⟩]
  typed := some ("ixml.IXML".toList, ⟨"iXML".toList, "http://ns.adobe.com/ixml/1.0/".toList, some 8⟩)

/-- models/mp4/model.go:25 (namespaces), 29 (registration), 32 (`NewModel`), 57, 61 (`Namespaces`, `Can`); the package has
no `MakeModel` and `FindModel`.  Prefixes of tags: `mp4` (mp4/model.go:38). -/
def pkg_mp4 : Pkg where
  name := "mp4".toList
  imports := ["qt".toList]
  regs := [(⟨"mp4".toList, "http://ns.apple.com/quicktime/mp4/1.0/".toList, some 9⟩, ["movie".toList])]
  used := ["mp4".toList]
  factory := 9
  newModel := fun _ => some "mp4.MP4Info".toList
  models := [⟨"mp4.MP4Info".toList, ⟨"mp4".toList, "http://ns.apple.com/quicktime/mp4/1.0/".toList, some 9⟩, "mp4".toList⟩]
  typed := none

/-- models/pdf/model.go:26 (namespaces), 30 (registration), 33 (`NewModel`), 69, 73 (`Namespaces`, `Can`), 37 and 46
(`MakeModel`, `FindModel`).  Prefixes of tags: `dc` (pdf/model.go:55), `pdf` (pdf/model.go:58), `xmp` (pdf/model.go:59).
-/
def pkg_pdf : Pkg where
  name := "pdf".toList
  imports := ["dc".toList, "xmp_base".toList]
  regs := [(⟨"pdf".toList, "http://ns.adobe.com/pdf/1.3/".toList, some 10⟩, ["xmp".toList])]
  used := ["dc".toList, "pdf".toList, "xmp".toList]
  factory := 10
  newModel := fun _ => some "pdf.PDFInfo".toList
  models := [⟨"pdf.PDFInfo".toList, ⟨"pdf".toList, "http://ns.adobe.com/pdf/1.3/".toList, some 10⟩, "pdf".toList⟩]
  typed := some ("pdf.PDFInfo".toList, ⟨"pdf".toList, "http://ns.adobe.com/pdf/1.3/".toList, some 10⟩)

/-- models/pm/model.go:31 (namespaces), 35 (registration), 38 (`NewModel`), 58, 62 (`Namespaces`, `Can`), 42 and 51
(`MakeModel`, `FindModel`).  Prefixes of tags: `photomechanic` (pm/model.go:99). -/
def pkg_pm : Pkg where
  name := "pm".toList
  imports := []
  regs := [(⟨"photomechanic".toList, "http://ns.camerabits.com/photomechanic/1.0/".toList, some 11⟩, ["image".toList])]
  used := ["photomechanic".toList]
  factory := 11
  newModel := fun _ => some "pm.Photomechanic".toList
  models := [⟨"pm.Photomechanic".toList, ⟨"photomechanic".toList, "http://ns.camerabits.com/photomechanic/1.0/".toList, some 11⟩, "photomechanic".toList⟩]
  typed := some ("pm.Photomechanic".toList, ⟨"photomechanic".toList, "http://ns.camerabits.com/photomechanic/1.0/".toList, some 11⟩)

/-- models/ps/model.go:27 (namespaces), 31 (registration), 34 (`NewModel`), 81, 85 (`Namespaces`, `Can`), 38 and 47
(`MakeModel`, `FindModel`).  Prefixes of tags: `photoshop` (ps/model.go:55). -/
def pkg_ps : Pkg where
  name := "ps".toList
  imports := []
  regs := [(⟨"photoshop".toList, "http://ns.adobe.com/photoshop/1.0/".toList, some 12⟩, ["image".toList])]
  used := ["photoshop".toList]
  factory := 12
  newModel := fun _ => some "ps.PhotoshopInfo".toList
  models := [⟨"ps.PhotoshopInfo".toList, ⟨"photoshop".toList, "http://ns.adobe.com/photoshop/1.0/".toList, some 12⟩, "photoshop".toList⟩]
  typed := some ("ps.PhotoshopInfo".toList, ⟨"photoshop".toList, "http://ns.adobe.com/photoshop/1.0/".toList, some 12⟩)

/-- models/qt/model.go:63 (namespaces), 67 (registration), 70 (`NewModel`), 88, 92 (`Namespaces`, `Can`); the package has
no `MakeModel` and `FindModel`.  Prefixes of tags: `qt` (qt/model.go:75). -/
def pkg_qt : Pkg where
  name := "qt".toList
  imports := ["ixml".toList, "tiff".toList]
  regs := [(⟨"qt".toList, "http://ns.apple.com/quicktime/1.0/".toList, some 13⟩, ["movie".toList, "camera".toList])]
  used := ["qt".toList]
  factory := 13
  newModel := fun _ => some "qt.QtInfo".toList
  models := [⟨"qt.QtInfo".toList, ⟨"qt".toList, "http://ns.apple.com/quicktime/1.0/".toList, some 13⟩, "qt".toList⟩]
  typed := none

/-- models/riff/model.go:27 (namespaces), 31 (registration), 34 (`NewModel`), 147, 151 (`Namespaces`, `Can`), 38 and 47
(`MakeModel`, `FindModel`).  Prefixes of tags: `dc` (riff/model.go:59), `riffinfo` (riff/model.go:55), `xmp`
(riff/model.go:60), `xmpDM` (riff/model.go:56). -/
def pkg_riff : Pkg where
  name := "riff".toList
  imports := ["dc".toList, "xmp_base".toList, "xmp_dm".toList]
  regs := [(⟨"riffinfo".toList, "http://ns.adobe.com/riff/info".toList, some 14⟩, ["sound".toList])]
  used := ["dc".toList, "riffinfo".toList, "xmp".toList, "xmpDM".toList]
  factory := 14
  newModel := fun _ => some "riff.RiffInfo".toList
  models := [⟨"riff.RiffInfo".toList, ⟨"riffinfo".toList, "http://ns.adobe.com/riff/info".toList, some 14⟩, "riffinfo".toList⟩]
  typed := some ("riff.RiffInfo".toList, ⟨"riffinfo".toList, "http://ns.adobe.com/riff/info".toList, some 14⟩)

/-- models/tiff/model.go:29 (namespaces), 33 (registration), 36 (`NewModel`), 94, 98 (`Namespaces`, `Can`), 40 and 49
(`MakeModel`, `FindModel`).  Prefixes of tags: `dc` (tiff/model.go:57), `tiff` (tiff/model.go:58), `xmp`
(tiff/model.go:60). -/
def pkg_tiff : Pkg where
  name := "tiff".toList
  imports := ["dc".toList, "xmp_base".toList]
  regs := [(⟨"tiff".toList, "http://ns.adobe.com/tiff/1.0/".toList, some 15⟩, ["image".toList])]
  used := ["dc".toList, "tiff".toList, "xmp".toList]
  factory := 15
  newModel := fun _ => some "tiff.TiffInfo".toList
  models := [⟨"tiff.TiffInfo".toList, ⟨"tiff".toList, "http://ns.adobe.com/tiff/1.0/".toList, some 15⟩, "tiff".toList⟩]
  typed := some ("tiff.TiffInfo".toList, ⟨"tiff".toList, "http://ns.adobe.com/tiff/1.0/".toList, some 15⟩)

/-- models/xmp_base/model.go:25-29 (namespaces), 33-36 (registration), 39 (`NewModel`), 74, 78 (`Namespaces`, `Can`), 43
and 52 (`MakeModel`, `FindModel`).  Prefixes of tags: `rdf` (xmp_base/types.go:52), `stArea` (xmp_base/types.go:207),
`xmp` (xmp_base/model.go:60), `xmpGImg` (xmp_base/types.go:171), `xmpidq` (xmp_base/types.go:53). -/
def pkg_xmp_base : Pkg where
  name := "xmp_base".toList
  imports := []
  regs := [(⟨"xmp".toList, "http://ns.adobe.com/xap/1.0/".toList, some 16⟩, ["xmp".toList]), (⟨"xmpidq".toList, "http://ns.adobe.com/xmp/Identifier/qual/1.0/".toList, none⟩, []), (⟨"xmpG".toList, "http://ns.adobe.com/xap/1.0/g/".toList, none⟩, []), (⟨"xmpGImg".toList, "http://ns.adobe.com/xap/1.0/g/img/".toList, none⟩, [])]
  used := ["rdf".toList, "stArea".toList, "xmp".toList, "xmpGImg".toList, "xmpidq".toList]
  factory := 16
  newModel := fun _ => some "xmp_base.XmpBase".toList
  models := [⟨"xmp_base.XmpBase".toList, ⟨"xmp".toList, "http://ns.adobe.com/xap/1.0/".toList, some 16⟩, "xmp".toList⟩]
  typed := some ("xmp_base.XmpBase".toList, ⟨"xmp".toList, "http://ns.adobe.com/xap/1.0/".toList, some 16⟩)

/-- models/xmp_bj/model.go:24-25 (namespaces), 29-30 (registration), 33 (`NewModel`), 57, 61 (`Namespaces`, `Can`), 37 and
46 (`MakeModel`, `FindModel`).  Prefixes of tags: `stJob` (xmp_bj/types.go:24), `xmpBJ` (xmp_bj/model.go:54). -/
def pkg_xmp_bj : Pkg where
  name := "xmp_bj".toList
  imports := []
  regs := [(⟨"xmpBJ".toList, "http://ns.adobe.com/xap/1.0/bj/".toList, some 17⟩, ["xmp".toList]), (⟨"stJob".toList, "http://ns.adobe.com/xap/1.0/sType/Job#".toList, none⟩, [])]
  used := ["stJob".toList, "xmpBJ".toList]
  factory := 17
  newModel := fun _ => some "xmp_bj.JobTicket".toList
  models := [⟨"xmp_bj.JobTicket".toList, ⟨"xmpBJ".toList, "http://ns.adobe.com/xap/1.0/bj/".toList, some 17⟩, "xmpBJ".toList⟩]
  typed := some ("xmp_bj.JobTicket".toList, ⟨"xmpBJ".toList, "http://ns.adobe.com/xap/1.0/bj/".toList, some 17⟩)

/-- models/xmp_dm/model.go:25 (namespaces), 29 (registration), 32 (`NewModel`), 130, 134 (`Namespaces`, `Can`), 36 and 45
(`MakeModel`, `FindModel`).  Prefixes of tags: `xmpDM` (xmp_dm/model.go:53). -/
def pkg_xmp_dm : Pkg where
  name := "xmp_dm".toList
  imports := ["xmp_tpg".toList]
  regs := [(⟨"xmpDM".toList, "http://ns.adobe.com/xmp/1.0/DynamicMedia/".toList, some 18⟩, ["xmp".toList])]
  used := ["xmpDM".toList]
  factory := 18
  newModel := fun _ => some "xmp_dm.XmpDM".toList
  models := [⟨"xmp_dm.XmpDM".toList, ⟨"xmpDM".toList, "http://ns.adobe.com/xmp/1.0/DynamicMedia/".toList, some 18⟩, "xmpDM".toList⟩]
  typed := some ("xmp_dm.XmpDM".toList, ⟨"xmpDM".toList, "http://ns.adobe.com/xmp/1.0/DynamicMedia/".toList, some 18⟩)

/-- models/xmp_mm/model.go:25-28 (namespaces), 32-35 (registration), 38 (`NewModel`), 77, 81 (`Namespaces`, `Can`), 42 and
51 (`MakeModel`, `FindModel`).  Prefixes of tags: `stEvt` (xmp_mm/types.go:126), `stRef` (xmp_mm/types.go:25), `stVer`
(xmp_mm/types.go:103), `xmpMM` (xmp_mm/model.go:59). -/
def pkg_xmp_mm : Pkg where
  name := "xmp_mm".toList
  imports := ["xmp_dm".toList]
  regs := [(⟨"xmpMM".toList, "http://ns.adobe.com/xap/1.0/mm/".toList, some 19⟩, ["xmp".toList]), (⟨"stEvt".toList, "http://ns.adobe.com/xap/1.0/sType/ResourceEvent#".toList, none⟩, []), (⟨"stRef".toList, "http://ns.adobe.com/xap/1.0/sType/ResourceRef#".toList, none⟩, []), (⟨"stVer".toList, "http://ns.adobe.com/xap/1.0/sType/Version#".toList, none⟩, [])]
  used := ["stEvt".toList, "stRef".toList, "stVer".toList, "xmpMM".toList]
  factory := 19
  newModel := fun _ => some "xmp_mm.XmpMM".toList
  models := [⟨"xmp_mm.XmpMM".toList, ⟨"xmpMM".toList, "http://ns.adobe.com/xap/1.0/mm/".toList, some 19⟩, "xmpMM".toList⟩]
  typed := some ("xmp_mm.XmpMM".toList, ⟨"xmpMM".toList, "http://ns.adobe.com/xap/1.0/mm/".toList, some 19⟩)

/-- models/xmp_rights/model.go:24 (namespaces), 28 (registration), 31 (`NewModel`), 59, 63 (`Namespaces`, `Can`), 35 and
44 (`MakeModel`, `FindModel`).  Prefixes of tags: `xmpRights` (xmp_rights/model.go:52). -/
def pkg_xmp_rights : Pkg where
  name := "xmp_rights".toList
  imports := []
  regs := [(⟨"xmpRights".toList, "http://ns.adobe.com/xap/1.0/rights/".toList, some 20⟩, ["xmp".toList, "rights".toList])]
  used := ["xmpRights".toList]
  factory := 20
  newModel := fun _ => some "xmp_rights.XmpRights".toList
  models := [⟨"xmp_rights.XmpRights".toList, ⟨"xmpRights".toList, "http://ns.adobe.com/xap/1.0/rights/".toList, some 20⟩, "xmpRights".toList⟩]
  typed := some ("xmp_rights.XmpRights".toList, ⟨"xmpRights".toList, "http://ns.adobe.com/xap/1.0/rights/".toList, some 20⟩)

/-- models/xmp_tpg/model.go:25-27 (namespaces), 31-33 (registration), 36 (`NewModel`), 67, 71 (`Namespaces`, `Can`), 40
and 49 (`MakeModel`, `FindModel`).  Prefixes of tags: `stDim` (xmp_tpg/types.go:47), `stFnt` (xmp_tpg/types.go:76), `xmpG`
(xmp_tpg/types.go:110), `xmpTPg` (xmp_tpg/model.go:57). -/
def pkg_xmp_tpg : Pkg where
  name := "xmp_tpg".toList
  imports := []
  regs := [(⟨"xmpTPg".toList, "http://ns.adobe.com/xap/1.0/t/pg/".toList, some 21⟩, ["xmp".toList]), (⟨"stDim".toList, "http://ns.adobe.com/xap/1.0/sType/Dimensions#".toList, none⟩, []), (⟨"stFnt".toList, "http://ns.adobe.com/xap/1.0/sType/Font#".toList, none⟩, [])]
  used := ["stDim".toList, "stFnt".toList, "xmpG".toList, "xmpTPg".toList]
  factory := 21
  newModel := fun _ => some "xmp_tpg.PagedText".toList
  models := [⟨"xmp_tpg.PagedText".toList, ⟨"xmpTPg".toList, "http://ns.adobe.com/xap/1.0/t/pg/".toList, some 21⟩, "xmpTPg".toList⟩]
  typed := some ("xmp_tpg.PagedText".toList, ⟨"xmpTPg".toList, "http://ns.adobe.com/xap/1.0/t/pg/".toList, some 21⟩)

/-- All packages under /repo/models. -/
def packages : List Pkg :=
  [pkg_cc, pkg_crs, pkg_dc, pkg_digikam, pkg_dji, pkg_exif, pkg_id3, pkg_itunes, pkg_ixml, pkg_mp4, pkg_pdf, pkg_pm, pkg_ps, pkg_qt, pkg_riff, pkg_tiff, pkg_xmp_base, pkg_xmp_bj, pkg_xmp_dm, pkg_xmp_mm, pkg_xmp_rights, pkg_xmp_tpg]

/-- models/import.go:18-41: the packages that importing `models` "to register all metadata models" imports. -/
def allModels : List Str :=
  ["cc".toList, "crs".toList, "dc".toList, "dji".toList, "exif".toList, "id3".toList, "itunes".toList, "ixml".toList,
   "mp4".toList, "pdf".toList, "pm".toList, "ps".toList, "qt".toList, "riff".toList, "tiff".toList, "xmp_base".toList,
   "xmp_bj".toList, "xmp_dm".toList, "xmp_mm".toList, "xmp_rights".toList, "xmp_tpg".toList]

/-- All models of all packages. -/
def decls : List Decl := packages.flatMap (·.models)

/-- xmp/namespace.go:111-116 `NewModel` for a namespace of one of the packages: the declaration of the model that the factory
makes; `none` is a nil model. -/
def newModel (ns : Namespace) : Option Decl :=
  match ns.factory with
  | none => none
  | some f =>
    match packages.find? (fun p => p.factory = f) with
    | none => none
    | some p =>
      match p.newModel ns.name with
      | none => none
      | some t => decls.find? (fun d => d.typ = t)

/-- A model instance of a declared type. -/
def Decl.inst (d : Decl) (id : Nat) : XModel := ⟨id, [d.ns], [d.can]⟩

/-- What a typed access function returns: the nil pointer, a pointer to a model of the type, or a panic. -/
inductive Found where
  | nil
  | ptr (m : XModel)
  | panic
deriving DecidableEq, Repr

/-- The functions `FindModel` of the packages, e.g. models/dc/model.go:44-49: the type assertion `m.(*T)` panics for a model
of another type.  `ty` gives the types of the instances. -/
def findTyped (ty : Nat → Str) (w : Str × Namespace) (d : Doc) : Found :=
  match d.findModel w.2 with
  | none => .nil
  | some m => if ty m.id = w.1 then .ptr m else .panic

/-- The functions `MakeModel` of the packages, e.g. models/dc/model.go:35-42: the result of the type assertion `x, _ := m.(*T)`
is not looked at.  `none` is an error; `fresh` the model that the factory would make. -/
def makeTyped (ty : Nat → Str) (w : Str × Namespace) (fresh : Option XModel) (d : Doc) : Option Found × Doc :=
  match d.makeModel w.2 fresh with
  | (none, d) => (none, d)
  | (some m, d) => (some (if ty m.id = w.1 then .ptr m else .nil), d)

end Xmp.Shipped
