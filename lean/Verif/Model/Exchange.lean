import Verif.Model.AltString
import Verif.Model.Date

/-! Model of the exchange of PDF and TIFF properties with Dublin Core and the XMP base properties: models/pdf/model.go:81-131 and
models/tiff/model.go:106-161. Only the fields which take part are modelled; slices are values, that is, later changes through shared memory
are not modelled. -/

namespace Xmp.Exchange

open GoStr

/-- models/dc/model.go:54-70 `DublinCore`, the fields used here. -/
structure Dc where
  title : AltString := []
  creator : List Str := []
  description : AltString := []
  rights : AltString := []
deriving DecidableEq, Repr

/-- models/xmp_base/model.go:60-75 `XmpBase`, the fields used here. -/
structure Base where
  createDate : GoTime := {}
  modifyDate : GoTime := {}
  creatorTool : Str := []
deriving DecidableEq, Repr

/-- A document: its Dublin Core and base models, if they are there. -/
structure Doc where
  dc : Option Dc := none
  base : Option Base := none
deriving DecidableEq, Repr

/-- models/pdf/model.go:53-67 `PDFInfo`, the fields used here. -/
structure Pdf where
  title : AltString := []
  author : List Str := []
  subject : AltString := []
  creator : Str := []
  creationDate : GoTime := {}
  modifyDate : GoTime := {}
  copyright : Str := []
deriving DecidableEq, Repr

/-- models/tiff/model.go:56-92 `TiffInfo`, the fields used here; the last five are `X_Artist` to `X_Copyright`, the wrong places of other
programs. -/
structure Tiff where
  artist : List Str := []
  dateTime : GoTime := {}
  software : Str := []
  imageDescription : AltString := []
  copyright : AltString := []
  xArtist : Str := []
  xDateTime : GoTime := {}
  xSoftware : Str := []
  xImageDescription : AltString := []
  xCopyright : AltString := []
deriving DecidableEq, Repr

/-- models/pdf/model.go:81-96 `PDFInfo.SyncFromXMP`. -/
def pdfFrom (x : Pdf) (d : Doc) : Pdf :=
  let x := match d.dc with
    | none => x
    | some m => {
        x with
        title := m.title
        author := m.creator
        subject := m.description
        copyright := if m.rights.default ≠ [] then m.rights.default else x.copyright }
  match d.base with
  | none => x
  | some b => { x with creator := b.creatorTool, creationDate := b.createDate, modifyDate := b.modifyDate }

/-- models/pdf/model.go:98-131 `PDFInfo.SyncToXMP`; the models are made if they are not there. -/
def pdfTo (x : Pdf) (d : Doc) : Doc :=
  let m := d.dc.getD {}
  let b := d.base.getD {}
  { dc := some {
      title := if m.title.length = 0 then x.title else m.title
      creator := if m.creator.length = 0 then x.author else m.creator
      description := if m.description.length = 0 then x.subject else m.description
      rights := if m.rights.length = 0 then m.rights.addDefault [] x.copyright else m.rights }
    base := some {
      createDate := if b.createDate.isZero then x.creationDate else b.createDate
      modifyDate := if b.modifyDate.isZero then x.modifyDate else b.modifyDate
      creatorTool := if b.creatorTool = [] then x.creator else b.creatorTool } }

/-- models/tiff/model.go:106-119 `TiffInfo.SyncFromXMP`. -/
def tiffFrom (x : Tiff) (d : Doc) : Tiff :=
  let x := match d.dc with
    | none => x
    | some m => { x with artist := m.creator, imageDescription := m.description, copyright := m.rights }
  match d.base with
  | none => x
  | some b => { x with dateTime := b.modifyDate, software := if b.creatorTool ≠ [] then b.creatorTool else x.software }

/-- models/tiff/model.go:128-133. -/
def tiffCreator (m : List Str) (x : Tiff) : List Str :=
  let m := if m.length = 0 ∧ x.artist.length > 0 then x.artist else m
  if m.length = 0 ∧ x.xArtist.length > 0 then split ',' x.xArtist else m

/-- models/tiff/model.go:134-145, 152-157: a place that is filled from the right and then from the wrong property. -/
def fill {α : Type} (empty : α → Bool) (m a b : α) : α :=
  let m := if empty m then a else m
  if empty m then b else m

/-- models/tiff/model.go:122-161 `TiffInfo.SyncToXMP`; the models are made if they are not there. -/
def tiffTo (x : Tiff) (d : Doc) : Doc :=
  let m := d.dc.getD {}
  let b := d.base.getD {}
  { dc := some {
      title := m.title
      creator := tiffCreator m.creator x
      description := fill List.isEmpty m.description x.imageDescription x.xImageDescription
      rights := fill List.isEmpty m.rights x.copyright x.xCopyright }
    base := some {
      createDate := b.createDate
      modifyDate := fill GoTime.isZero b.modifyDate x.dateTime x.xDateTime
      creatorTool := if b.creatorTool = [] ∧ x.software ≠ [] then x.software else b.creatorTool } }

/-- The models of a document that take part. -/
inductive Src where
  | pdf (x : Pdf)
  | tiff (x : Tiff)

/-- The call of `SyncToXMP` of one model. -/
def Src.to : Src → Doc → Doc
  | .pdf x => pdfTo x
  | .tiff x => tiffTo x

/-- xmp/document.go:96-111 `syncToXMP` of a changed document: all models in the order of the document. -/
def syncAll (l : List Src) (d : Doc) : Doc := l.foldl (fun d s => s.to d) d

end Xmp.Exchange
