import Verif.Props.Semver
import Verif.Props.Path
import Verif.Props.Listing
import Verif.Props.Flags
import Verif.Props.Registry
import Verif.Props.Document
import Verif.Props.AltString
import Verif.Props.Array
import Verif.Props.ArrayXmp
import Verif.Props.Node
import Verif.Props.Pool
import Verif.Props.NodePath
import Verif.Props.Writer
import Verif.Props.Reader
import Verif.Props.ModelPathCases
import Verif.Props.Slice
import Verif.Props.Sync
import Verif.Props.Merge
import Verif.Props.Rational
import Verif.Props.Media
import Verif.Props.Tags
import Verif.Props.TypeInfoEnds
import Verif.Props.FieldTags
import Verif.Props.Translate
import Verif.Props.TypedXmp
import Verif.Props.TypedNames
import Verif.Props.TypedXmpCases
import Verif.Props.Json
import Verif.Props.JsonTree
import Verif.Props.JsonCases
import Verif.Props.XmlText
import Verif.Model.DocXmp
import Verif.Props.TypedUnmixed
import Verif.Props.DocGroups
import Verif.Props.DocSpec
import Verif.Props.DocEncode
import Verif.Props.DocRead
import Verif.Props.DocDecoder
import Verif.Props.DocDecode
import Verif.Props.DocRoots
import Verif.Props.DocParse
import Verif.Props.DocXmp
import Verif.Props.DocXmpCases
import Verif.Model.ListPaths
import Verif.Props.ListPaths
import Verif.Props.ListModel
import Verif.Props.ListNodes
import Verif.Props.ListDoc
import Verif.Props.ListCases
import Verif.Model.GoTime
import Verif.Model.Date
import Verif.Props.DateSym
import Verif.Props.DateText
import Verif.Props.Dates
import Verif.Model.Native
import Verif.Props.Native
import Verif.Model.MediaMgmt
import Verif.Props.MediaMgmt
import Verif.Model.Identifier
import Verif.Props.Identifier
import Verif.Props.JsonTyped
import Verif.Props.JsonTypedCases
import Verif.Model.JsonDoc
import Verif.Props.JsonDocTree
import Verif.Props.JsonDocRead
import Verif.Props.JsonDocSpec
import Verif.Props.JsonDoc
import Verif.Props.JsonDocCases
import Verif.Model.GoFields
import Verif.Model.Exif
import Verif.Props.Fields
import Verif.Props.Exif
import Verif.Props.ExifDates
import Verif.Model.Id3
import Verif.Props.Id3
import Verif.Props.Id3Sync
import Verif.Model.Ixml
import Verif.Props.Ixml
import Verif.Props.IxmlUpgrade
import Verif.Model.Markers
import Verif.Props.Markers
import Verif.Model.Qt
import Verif.Props.Qt
import Verif.Props.QtTags
import Verif.Model.Riff
import Verif.Props.Riff
import Verif.Props.RiffSync
import Verif.Model.Duration
import Verif.Props.Duration
import Verif.Props.DurationText
import Verif.Model.Values
import Verif.Props.Points
import Verif.Props.Values
import Verif.Model.Exchange
import Verif.Props.Exchange
import Verif.Model.Ext
import Verif.Props.Ext
import Verif.Model.Base64
import Verif.Props.Base64
import Verif.Model.Structs
import Verif.Props.Structs
import Verif.Model.Gps
import Verif.Props.Gps
import Verif.Model.Collect
import Verif.Props.Collect
import Verif.Model.Utf8
import Verif.Model.JsonText
import Verif.Lemmas.Utf8
import Verif.Lemmas.JsonText
import Verif.Props.JsonText
import Verif.Props.JsonTextDoc
import Verif.Model.XmlBytes
import Verif.Lemmas.XmlBytes
import Verif.Props.XmlBytes
import Verif.Props.XmlRefused
import Verif.Model.Scan
import Verif.Props.ReaderFinds
import Verif.Props.Embedded
import Verif.Model.Shipped
import Verif.Props.Shipped
import Verif.Model.ShippedTypes
import Verif.Props.ShippedSpec
import Verif.Props.ShippedDoc
import Verif.Props.ShippedDocCases
import Verif.Props.ForeignFields
import Verif.Props.ShippedLost
import Verif.Model.ShippedTags
import Verif.Props.ShippedTags
import Verif.Props.ShippedTagFinds
import Verif.Props.DocBytes
import Verif.Props.ShippedBytes
import Verif.Props.DocJsonText
import Verif.Props.JsonShows
import Verif.Props.ShippedJson
import Verif.Model.Uri
import Verif.Props.Forms
import Verif.Props.FormsDoc
import Verif.Props.FormsCases
import Verif.Model.IxmlXml
import Verif.Props.IxmlXml
import Verif.Props.IxmlBack
import Verif.Props.IxmlReread
import Verif.Props.IxmlChunk
import Verif.Props.Visible
import Verif.Props.Saved
import Verif.Props.SetClean
import Verif.Props.SavedDoc
import Verif.Props.Session
import Verif.Props.SavedCases
import Verif.Model.Info
import Verif.Props.Info
import Verif.Props.InfoCases
import Verif.Model.JsonIndent
import Verif.Props.JsonForms
import Verif.Props.InfoJson
import Verif.Props.Formats
import Verif.Model.TextLists
import Verif.Props.TextLists
import Verif.Props.Workflow
import Verif.Model.NsNames
import Verif.Props.NsNames
import Verif.Model.Timecode
import Verif.Props.Timecode
import Verif.Model.SubSampling
import Verif.Props.SubSampling
import Verif.Model.Log
import Verif.Props.Log
import Verif.Props.MergeNew
