# Formal model of go-xmp

## 1. What is here

* `properties.jsonl` - the properties, in terms of the public API.
* `lean/Verif/Model/*.lean` - the model: executable total Lean functions, one per Go function,
  each with a comment citing the file and lines in /repo it models and the simplifications made.
* `lean/Verif/Lemmas/*.lean` - helper lemmas, no property is stated there.
* `lean/Verif/Props/*.lean` - the property theorems, with their independent specifications and
  a concrete non-trivial instance (`example`) beside each theorem.
* `MANIFEST.json` - property -> theorem names and status.
* `seeded/LOG.jsonl` - log of the mutation tests of the theorems.

## 2. Trusted base

* Lean 4.33.0 kernel and the axioms `propext`, `Classical.choice`, `Quot.sound` (at most; see the
  `#print axioms` run of vcheck). No own axioms, no `sorry`, no `native_decide`, no `bv_decide`.
* The reading of the Go source into the model. The model was written by hand from the text of the
  pinned commit, the code was never run. Every definition cites the lines it models.
* The Go standard library functions used by that code (`strings`, `strconv`, `bufio.Scanner`,
  `bytes`, `io.CopyN`, maps, slices, channels) are modelled from their documentation and well
  known source; they are part of the trusted reading, see `Model/GoStr.lean`.

### General representation choices

* A Go string or byte slice is `Str := List Char`, each `Char` standing for one byte. All modelled
  functions only compare bytes with ASCII constants, so a theorem over all `List Char` covers in
  particular all byte strings. `len` is the list length.
* Go `int`/`int64` are `Int` with explicit range checks wherever the code parses or the property
  depends on the width; `BitVec 32` where bits matter.
* Errors are values (`Except`/`Option`); a Go panic is an explicit outcome, never totalised away.
* Pointers, where aliasing matters (node pool, slice growth, GetAttr copies), are explicit
  identifiers into a heap or a slice header over a backing array; elsewhere trees are values.
* Goroutines are step machines over an explicit interleaving.

## 3. Properties: what is modelled and how it is proved

(Updated as the model grows; `MANIFEST.json` is authoritative for the status.)

| id | model | proof idea |
|----|-------|-----------|
| C01 | `Semver`: Equal/Before/After as written | refinement to lexicographic order on Int triples |
| C02 | `Semver` + `GoStr` Atoi/Itoa/Split | round trip lemma for Itoa/Atoi, Split of a join |
| C03 | `Semver.between` | case split against an order-based spec; negation witnesses for the upper bound |
| C04 | `Namespace` prefix functions | list lemmas on first-colon split |
| C05 | `Path` | split/join inverse, induction over segments |
| C06 | `Path.appendIndex`, `parsePathSegment` | round trip; negation for nested array segments |
| C07 | `PathValueList.unique` | induction over the sorted list |
| C08 | `PathValueList.diff` | membership characterisation; negation for empty listings |
| C09 | `SyncFlags` parser | set-based spec, induction over tokens |
| C10 | `Registry` | refinement of the history to latest-wins lookup |
| C11 | `Filter` parse and print | token round trip |
| C12, C13, C41 | `Document` (nodes, namespace maps, dirty) | invariants and induction over operations |
| C14, C15, C16 | `AltString` with explicit panic outcome | invariant over operation histories; codec round trip |
| C17, C18, C37 | `StringList` | induction; negation for Remove |
| C19 | `MarshalArray`/`UnmarshalArray` on node trees | induction over elements |
| C20, C22 | `Node` trees, GetPath/SetPath | structural induction |
| C21 | pool as heap of node ids and a bounded queue | invariant over histories |
| C23, C24 | `countWriter`, packet assembly | induction over write chunks |
| C25 | `splitPacket`, `bufio.Scanner` loop over a chunked reader | invariants; negation for chunk independence |
| C26, C27, C42 | documents of node trees and typed models: `GetPath`, `SetPath`, `Sync`, `Merge` (`Model/DocPath.lean`) | case analysis against a permission table, frame lemmas, induction over the listing |
| C28 | `getTypeInfo` as step machine: every lock operation and map access is a step (`Model/TypeInfo.lean`); specification `Info` without cache and lock | invariant over interleavings, lock counting, decreasing cost |
| C44 | struct tags and name conflicts (`Model/TypeInfo.lean`) | case analysis over the documented forms; negation for overlaps |
| C29, C30 | scalar codecs (`Model/Codec.lean`); the float printer and parser of the standard library are parameters with a stated law (`FloatLaw`) | round trips, gcd by strong induction |
| C31 | slice header over backing array | list lemmas; negation for stale elements |
| C32, C33 | universe of model types and values for the reflection code; writing to and reading from node trees (`Model/TypedXmp.lean`) | induction over the universe; for C33 the values that survive are described by `Faithful`, the names by `NameOK` |
| C34 | `nodeToJson` / `jsonToNode` on JSON trees (`Model/Json.lean`; the JSON text layer and UTF-8 are treated in C68) | a tree `Says` what a node means; mutual induction over trees and JSON values, all visiting orders of objects (`JSame`) |
| C45 | XML tokens of a node tree (`Model/XmlText.lean`; bytes: C69) | mutual induction over trees: reading what was written is `Node.reparse`; exact condition with indentation; negation for divided texts |
| C46 | `Encode` and `Decode` of whole documents (`Model/DocXmp.lean`): wrapper nodes, declarations, descriptions; the order of declarations is any rearrangement; `SyncToXMP` and `SyncFromXMP` hooks do nothing, packet wrapper in C25 | the encoder puts the content of each top-level node into groups by prefix (`Grouped`), the decoder collects them again (`build`); induction over fields, groups and nodes on top of C33, C36 and C45; `DocOK` describes the documents, negations for what is lost |
| C47 | `ListPaths`, `ListModelPaths`, `listPaths`, `Node.ListPaths` (`Model/ListPaths.lean`); `sort.Sort` is any function that permutes (and orders by path); `SyncToXMP` hooks do nothing, no maps or extensions | specification: inductive relations `Below`, `NBelow` that say which text a value or node holds behind which segments; mutual induction shows the listing exact, a second induction shows that reading follows the same relation; negations for entries that do not read back |
| C48 | `Date`, `Time`, `ParseDate`, `repairTZ`, `ParseTime` (`Model/Date.lean`) on a model of Go's `time.Format` and `time.Parse` for the elements that occur in the layouts (`Model/GoTime.lean`, Go 1.20 or later; zone names, locations and the monotonic clock are left out) | texts are run symbolically: characters are fixed or digits of fields (`SC`), the symbolic parser is proved sound for all field values (`symToks_sound`), then a kernel-checked table over layouts, signs and numbers of fraction digits gives the result for all dates; invariant over layout elements for validity; lemmas about suffixes for the repairs |
| C49 | `GetNativeField`, `SetNativeField`, `GetLocaleField`, `SetLocaleField`, `ListNativeFields` (`Model/Native.lean`) on the typed universe of `Model/Typed.lean`; binary unmarshalers, maps and fixed arrays are left out, string arrays have a text form and other arrays have none | by cases on the type; which text means which value is stated on its own (`TagDenotes`, `UsualText`); the listing by induction over the fields, compared with what reading each field gives (`tag_list`) |
| C50 | `AppendVersionHistory`, the getters and setters of versions, `SelfResourceRef`, `ResourceRefArray.Index`/`DeleteIndex` (`Model/MediaMgmt.lean`); arrays hold values in place of pointers, dates are of any type | invariant over all sequences of steps: the version list describes the runs of the log of changes (`DescribesRuns`, stated without the functions of the model) |
| C51 | `Identifier` with its XMP and text methods, `IdentifierArray`, the type `Thumbnail` (`Model/Identifier.lean`), on the encoder and decoder of `Model/TypedXmp.lean` | computation of encoder and decoder on the nodes of the three forms, for all names that mean `rdf:value` and `xmpidq:Scheme`; the loss for all identifiers with scheme |
| C52 | `nodeToJson` and `jsonToNode` (`Model/Json.lean`) on the nodes of the typed encoder, and the typed decoder on the nodes that are read (`Model/TypedXmp.lean`); the text of JSON is treated in C68, objects come in any order | induction on the type, the value read by `unmarshal` for every JSON value that is the same up to order (`JSame`); fields that were attributes are read from elements |
| C53 | `MarshalJSON` and `UnmarshalJSON` of documents (`Model/JsonDoc.lean`) with the encoder and decoder of C46; the text of JSON is treated in C68, all objects come in any order | every entry of a namespace is read as an element for one field or one tree (`JEntry`, from C34 and C52); the decoder loop over elements in any order keeps the state `stateOf` (`loop_any`); permutations collect the parts of each node |
| C54 | the value types of `models/exif/types.go` and the conversions of `models/exif/model.go` (`Model/Exif.lean`), words of texts in `Model/GoFields.lean`; coordinates (floating point) are not modelled | texts as lists of words (`fields_join`), induction over the words; flash numbers by bit arithmetic against the sum of the standard; dates by the symbolic reading of C48 |
| C55 | `models/id3/types.go` (genres, dates, times, track numbers), the tables of `enum.go` and `model.go`, and the exchange with other schemas (`Model/Id3.lean`); frames without a reader are not modelled | texts as lists split at commas, compared with the reading of one entry (`genreWord`); two-digit numbers by `getnum`; the exchange field by field against `Carried` |
| C56 | `models/ixml/enum.go` (lists and sets), `types.go` (truth values, sync points, start timecode), `model.go` (upgrade, exchange), `ParseTimecodeFormat` of `models/xmp_dm/types.go` (`Model/Ixml.lean`); rates are exact fractions instead of floating point numbers, the XML form and the other fields are not modelled | sets by refinement over sequences of operations (`IxmlOp.meant`); slices as an array and a length, so that copies share it; upgrade by cases on the first sync point; timecode by arithmetic on natural numbers |
| C57 | `models/xmp_dm/types.go` (comparison, sorting and filtering of markers, video frame rates; `Model/Markers.lean`); exact fractions instead of floating point numbers, `sort.Sort` by what it promises, the reading of decimals is a parameter | time as count * base / rate (`Earlier`); comparison of fractions is shown to be transitive, so neighbours in order give the whole list in order |
| C58 | `models/qt/model.go` (tags; `Model/Qt.lean`), with the tag tables generated from the structs of `models/qt/qt_*.go`; the fields are stored by the model of `xmp/native.go` (C38); the parser of iXML is a parameter | own reading of which part a tag belongs to (`qtPart`), all tables checked by the kernel for different names; the frame property by cases on equal and different parts |
| C59 | `models/riff/model.go`, `models/riff/types.go` (`Model/Riff.lean`) on the models of `xmp/typeinfo.go` (C16) and `xmp/native.go` (C38); models of other schemas reduced to the fields that take part | a struct with a repeated tag has no field table (any struct, then this one); own reading of separated texts (`semiText`, `HasSemi`); exchange by `Taken`, the new value if there is one |
| C60 | `xmp/units.go` `Duration` (`Model/Duration.lean`), with `time.Duration.String` and `time.ParseDuration` of Go's library; fractions and rounding are computed exactly instead of in floating point | own grammar of durations (`DurPart`, `SignText`) and their value (`partsNs`); the text of any duration is such a list of parts, by induction over the digits; the reader is inverted to show that nothing else is read |
| C61 | `models/qt/types.go` and `models/crs/types.go` `Point`, `models/itunes/types.go` `SMPB`, `models/pm/model.go` `Time`, `Preferences`, `models/qt/qt_metadata.go` sync (`Model/Values.lean`); printing and reading of the altitude (floating point) are parameters | own grammar of numbers after white space (`Begins`), in base 16 (`HexNum`) and of separators (`PointSep`); `Sscanf` is shown to accept exactly them; times by the symbolic evaluation of C48 |
| C62 | `models/pdf/model.go`, `models/tiff/model.go` `SyncFromXMP`, `SyncToXMP`, in the loop of `Document.syncToXMP` (`Model/Exchange.lean`); slices are values | own list of what each model offers for each property (`titles`, ..., `tools`) and `FirstOf`; invariant over the list of models: each place is filled from the concatenated offers |
| C63 | `xmp/xmp_ext.go` on node trees (`Model/Ext.lean`), with `decodeNode`, `decodeAttribute`, `lookupNode` of `Model/DocXmp.lean`; values stored by a decoder that fails later are not modelled | `Keeps`: a node holds the translated properties of one known prefix; induction over properties and prefixes, and over the number of cycles |
| C64 | `xmp/marshal.go` `ToRawString`, `isBase64` with Go's `base64.StdEncoding` (`Model/Base64.lean`); floating point numbers are not modelled, line ends are removed before decoding | own alphabet after RFC 4648, numbers with digits of 6 and 8 bits (`ofDigits`); induction over groups of three bytes; lengths show that no text decodes to itself |
| C65 | the `IsZero` and `MarshalXMP` of nine structs in models/xmp_bj, xmp_base, xmp_tpg, xmp_mm, exif (`Model/Structs.lean`); types with texts of their own are arbitrary codecs | own predicate on all fields (`AllEmpty`); induction over the fields; round trips with the theorems of C33 |
| C66 | `models/exif/types.go` 356-414 and `FloatToRational`, decimal texts of `Rational`, `Rational.Value` of `xmp/xmp_types.go` (`Model/Gps.lean`) with exact rational numbers instead of floating point | own notion of position (`minutes`) and form of the text (`CoordForm`); floor and rounding lemmas over ℚ, linear arithmetic |
| C67 | `identifierDesc`, `SyncModel`, `prefixer` of `models/xmp_base/model.go` 59-115 (`Model/Collect.lean`) on top of `Sync`, `SyncMulti` and `SetModelPath` | own description of a merged list (`addOne`, `gathered`); one step of `Sync`, then induction over the sources |
| C68 | texts that xmp/json.go 114, 236 and 257 write and read (`Model/JsonText.lean`, `Model/Utf8.lean`: encoding/json of Go 1.17 and unicode/utf8) | UTF-8 by Lean's own definition; induction over scalar values, then over the number of steps of the reader for all values; composition with C53 |
| C69 | bytes that xmp/marshal.go 212-271 writes and xmp/unmarshal.go 81 reads (`Model/XmlBytes.lean`: encoding/xml of Go 1.17; directives refused, XML declarations skipped, names outside of ASCII decided by a parameter) | characters of XML by the W3C production; induction over scalar values, then over trees with the rest of the text and the number of steps of the reader as parameters; composition with C46 |
| C70 | `Scan` and `Unmarshal` (`Model/Scan.lean`) over the scanner of C25, the bytes of C69 and the encoder of C23, C24 | invariant over the reads: before, inside and behind the packet, with the size of the buffer; texts of trees contain no `<?`; composition of C46, C69, C24 and C25 |
| C71 | the table of all packages under models/ with their registrations, factories, models and prefixes of tags, and the typed access functions (`Model/Shipped.lean`) over the registry of C10, documents of C13 and the encoder of C46 | the finite table is checked completely by the kernel; programs, orders and histories by induction over registrations and operations, with a typing of the instances |
| C72 | a generated table of the 260 types in fields of the shipped models with tags and methods (`Model/ShippedTypes.lean`), translated into the typed universe of C33 and the documents of C46 | the table is checked by the kernel (distinct names, known prefixes, forms of writing and reading); values by induction over types; the decoder by an invariant over all trees |
| C73 | a generated table of the fields of the 27 models with struct tags and the kinds of their types (`Model/ShippedTags.lean`), and their tag methods over the functions of C49 | the table is checked by the kernel, field by field; names by a lemma over structs with distinct tags; then C49 for all values |
| C74 | the models of C46, C69, C70 and C72 joined; no new code | the encoder keeps names and texts of XML: induction over types and values, fields, top-level nodes; then C46, C69 and C70; names of the shipped models and namespaces by the kernel |
| C75 | the models of C53, C68 and C72 joined; no new code | the encoder keeps UTF-8 and depth: induction over types and values, fields, top-level nodes, then over the JSON form; a value that leaves a trace is not dropped as an empty node; tables of types by the kernel |
| C76 | the reader of C42 and C46, and `Uri.UnmarshalXMP` (xmp/xmp_types.go:452-463) | the entries of an element are listed with inner `rdf:Description` flattened; reading is a fold over them; entries for different fields commute; induction over types; for documents the state is a map from prefixes to values |
| C77 | `ParseXML`, the types of models/ixml with their XML tags, the token loops of the lists, `xml.Marshal` of a chunk (Model/IxmlXml.lean) | tokens of a tree and back; loop = map over the children with the name of an item; a struct is read field by field; induction over types for write-read and for read-fits; the upgrade keeps what survives and is idempotent |
| C78 | `SetPath` (C26), the models of the library (C72), the encoder and decoder (C46) and the text of XML (C69); nothing new | invariant `Savable` over lists of calls: the document without the hidden elements of backing arrays can be saved (encoder and `GetPath` do not see them, Visible.lean); one call keeps `Clean` (induction over the path, SetClean.lean); a path that leads to a text leads into a top-level node with content, which is kept (Saved.lean); sessions of edits, saving and loading by induction with the same invariant, frame by the one of C26/C32 (Session.lean) |
| C79 | `main` of the command with its flags, exit codes and order of outputs, over the models of the scanner (C70), decoder and encoder of bytes (C74), and `ListPaths` (C48) | run by cases over flags and sources; the listing is kept because a top-level node without content lists nothing (`listRoots_content`) and the others come back (C74); induction over the number of repetitions |
| C80 | the reader of JSON texts (C68) and `json.Indent`; forms are specified after RFC 8259 by own inductive definitions | induction over the values: every form is read as its value, what is printed is a form, and indentation maps forms to forms; reading the parts of a document commutes, by induction over permutations; composed with C75 |
| C81 | the encoders and decoders of both formats (C74, C75) as steps of a relation between documents | one step keeps the conditions: nodes that are read from JSON have no attributes (invariant of the decoder), declared namespaces are registered, and values by path depend on the set of top-level nodes only (C78); induction over the steps |
| C82 | `LocaleArray` and `DateList` (`Model/TextLists.lean`) over the arrays of C19 and the dates of C48 | the forms are an inductive relation; reading an array succeeds exactly for the forms (induction over the elements); texts of dates are visible characters (symbolic text of a layout) and survive XML; agreement with the typed reader of C33 by induction over the elements |
| C83 | the sessions of C78 with the steps of C81; nothing new | hidden elements of backing arrays are seen by neither encoder (so a step from a document is a step from its visible part); invariant `Savable` over the steps; frame of edits from C78, of loading from C81 |
| C84 | the methods of `Namespace` on names and `Path.MatchNamespace` (`Model/NsNames.lean`), `NewPath` (C05) and the name translation of the decoder (C36) | a name is qualified in one way only (first colon); each method is characterised by an equivalence over this relation |
| C85 | `Timecode` as struct in XMP and as object in JSON (`Model/Timecode.lean`) over the text of C39 and the typed codec of C33 | the struct of two texts is faithful (C33), its text consists of visible characters; reading composes C33 with the round trip of C39; attributes by computation of the decoder |
| C86 | `YCbCrSubSampling` (`Model/SubSampling.lean`): name, test for zero, field writer and reader over the typed codec of C33 | case analysis of the name against a separate table of schemes; the list is faithful (C33) and not zero |
| C87 | log level, prefixes, `output`, `outputf` and calls as a state machine; `fmt.Sprintf` for texts (trusted description; other verbs give no text) (`Model/Log.lean`) | induction over calls from the end for the level; induction over the pieces of a format for the text |
| C35 | TagList | round trip |
| C36 | decoder namespace maps, `translate` of names and trees (Model/Translate) | invariant over declarations, idempotence; false for unregistered namespaces (witness) |
| C38, C39, C40, C43 | xmp_dm, itunes and qt text types (`Model/Media.lean`) | round trips and negations |

## 4. Findings: where the code violates the property

Each has a theorem with a concrete witness (or a universal one); the property keeps the status `partial`.

| property | finding | theorems |
|----------|---------|----------|
| C03 | version ranges: the upper bound is not respected as documented | see `Props/Semver.lean` |
| C06 | an index on a path that already ends in an index, and `[-1]`, do not read back | see `Props/Path.lean` |
| C08 | the difference to an empty listing is empty | see `Props/Listing.lean` |
| C11 | `xmp` is both a group name and a prefix, so a filter on the prefix prints as the group | `filter_xmp_not_roundtrip` |
| C12, C13 | `makeModel` on a document that has a bare node for the namespace adds a second node | `makeModel_duplicates_node` |
| C14 | building an alternative from two plain strings panics; so does removing the default of three or more | `newAltString_panics`, `removeLang_panics` |
| C15 | removal leaves further entries of the same language; setting the empty language is not read back | `removeLang_keeps_duplicates`, `set_empty_lang_ineffective` |
| C16 | a repeated language does not survive the round trip | `alt_roundtrip_duplicate_lang` |
| C18 | `StringList.Remove` never removes the value | `remove_full_statement_false`, `remove_never_removes` |
| C19 | the kind of array (Bag, Seq, Alt) is not checked when reading | `array_kind_not_checked` |
| C20 | children are looked up by local name: `a:x` and `b:x` shadow each other | `find_ignores_prefix` |
| C21 | closing a node twice puts it into the pool twice and two owners get it | `double_close_shares` |
| C22 | attribute paths, languages and arrays in raw nodes are not read back in the listed cases | `setPath_attribute_lost`, `setPath_language_appended`, `setPath_language_missing`, `setPath_array_unread`, `setPath_index_below_alternative`, `setPath_empty_segment` |
| C23 | an empty write exactly at the limit reports an overflow | `empty_write_overflows` |
| C25 | a start marker cut by a read boundary is lost when 15 bytes or fewer are buffered; single-byte readers find nothing | `scan_depends_on_reads`, `one_byte_reads_find_nothing`, `scan_loses_second_packet` |
| C25 | a token shorter than 51 bytes at the end of the buffer panics | `short_token_panics` |
| C25 | packets above 64 KB make the scan fail with `bufio.ErrTooLong` | `large_packet_too_long`, `large_reads_fail` |
| C31 | deleting the last of several elements leaves it in the backing array; growing the array makes it visible again | `deleted_element_returns` |
| C32 | values that count as empty (0, false) can be written but read as the empty string | `zero_not_read_back` |
| C32 | structs whose `IsZero` joins the fields with `\|\|` hide written fields | `iszero_or_not_read_back` |
| C32 | with default flags an array without index is appended to and a language gets a second text; the read returns the old value | `array_append_not_read_back`, `alt_default_not_read_back` |
| C32 | segments behind a simple value are ignored by a write | `extra_segments_ignored` |
| C32 | a failed write leaves an allocated empty struct behind; numbers cannot be deleted | `failed_write_allocates`, `number_not_deletable` |
| C26 | a refused empty value adds the model to the document first | `empty_value_creates_model` |
| C26 | a refused change to a bare node of a namespace with a model attaches an empty model, which hides the value | `refused_change_hides_value` |
| C26 | a value for the root path of a namespace deletes the namespace under default flags | `root_value_deletes` |
| C26 | errors reading the current value are reported despite `NOFAIL` | `nofail_read_error` |
| C42 | with the add flags, array elements of the destination are overwritten by those of the source | `merge_overwrites_element` |
| C42 | a source path that can not be read from the destination stops the merge, despite `NOFAIL` | `merge_stops` |
| C42 | merging into a bare node of a namespace with a model hides the values of the node | `merge_hides_bare_values` |
| C42 | `XmpMM.AddPantry` ignores that its merge fails: values after a path that can not be read are silently missing from the pantry; shown for a listing that a document without the model may give (models/xmp_mm/model.go:117-123) | `pantry_incomplete` |
| C27 | flags and equality are tested before the conversion: a converter can clear the target without the delete flag, an equal value marks the document as changed | `sync_clears_without_delete`, `sync_writes_equal_value` |
| C27 | syncing to a namespace without a model panics | `sync_panics_without_factory` |
| C41 | a node created by `SetPath` is not marked dirty when the value is then refused | `raw_node_not_dirty` |
| C29 | split integers of 2^31 and above are printed but not read back; parts of 128 and above are rejected, negative parts accepted | `splitInt_upper_half`, `splitInt_bad_parts` |
| C29 | the strings `unknown` and `-` (and similar) read as empty | `nullString_lost` |
| C29 | every text reads as a truth value, unknown ones as false | `nullBool_accepts_anything` |
| C29 | infinities change their sign in JSON; `1E5` is read as 15 | `float_json_swaps_inf`, `float_drops_capital_exponent` |
| C30 | text behind a rational is ignored | `rational_accepts_junk` |
| C30 | decimals below one are read as unit fractions (0.75 as 1/1) | `decimal_unit_fraction`, `decimal_misread` |
| C30 | reducing can move the sign to the denominator | `reduce_moves_sign` |
| C38 | frame counts 0 and -1 lose their rate, bases below one are not written | `frameCount_loses_rate`, `frameRate_negative_base` |
| C38 | the path of a part gains a slash, an empty list is read as one empty part, a start without duration is lost | `parts_not_read_back` |
| C39 | negative components are printed but can not be unpacked (outside the property) | `timecode_negative` |
| C40 | no content rating but the empty one is read back: all fields move by one | `contentRating_shifted`, `contentRating_never_roundtrips` |
| C43 | other texts are read without an error; more than nine digits of a fraction are ignored | `mediaTime_silent` |
| C28 | a struct that embeds a pointer to itself is looked up without end | `lookup_self_embedded` |
| C35 | a key with a dash is cut at the dash; a repeated key and language keeps the last value only | `tags_dash_in_key`, `tags_repeated` |
| C44 | `v+`, `v<`, `v1.0<` and the like panic | `tag_panics` |
| C44 | overlapping version ranges of fields with one name are accepted, depending on the order of the fields | `conflict_missed`, `conflict_order` |
| C36 | a standard prefix bound to another URI makes names of two namespaces equal | `translate_collision` |
| C36 | a name of a namespace not declared on an `rdf:Description` is taken for one of another namespace when its local name is a prefix of the document | `translate_misnamed` |
| C33 | a struct, array or language alternative tagged `attr` makes its model unwritable (`id3.TimedLyrics`, `itunes.MovieInfo.AssetInfo`) | `attr_not_marshalled` |
| C33 | an empty array with the option `empty` is written but can not be read | `empty_array_not_read` |
| C33 | a text that is no number in an array of numbers makes the decoder panic | `bad_item_panics` |
| C33 | a decoder with a version finds no field without version bounds | `version_rejects` |
| C33 | surrounding white space of strings is lost | `whitespace_lost` |
| C34 | the default text of an alternative with several texts is lost unless another language has the same text | `json_default_lost` |
| C34 | attributes (qualifiers) of an element with a value, siblings of an array, all but the last of repeated elements and inner arrays of arrays are lost | `json_qualifiers_lost`, `json_siblings_lost`, `json_repeated_lost`, `json_nested_lost` |
| C34 | texts of an alternative without language are lost; unordered arrays become ordered; `rdf:value` replaces the value of its parent | `json_no_language_lost`, `json_order_forgotten`, `json_rdf_value` |
| C34 | reading an array that starts like an alternative and continues otherwise panics | `json_alt_panics` |
| C45 | text divided by a comment, CDATA section or child element: only the last piece is kept | `xml_last_piece` |
| C45 | with `MarshalIndent` the value of an element that also has children is lost (kept by `Marshal`) | `xml_indent_value_lost`, `xml_roundtrip_indent` |
| C46 | the toolkit is never read; `about` is lost when no node has content | `toolkit_lost`, `about_lost` |
| C46 | elements outside of the models that repeat a name collapse, empty ones and empty attributes vanish; nodes without content vanish | `repeated_element_lost`, `document_roundtrip_partial` |
| C46 | documents that declare namespaces on `rdf:RDF`, `x:xmpmeta` or inner elements are rejected | `declared_elsewhere_rejected` |
| C47 | a default text without language, as `NewAltString("text")` makes it, is listed under `[x-default]` but this path reads as empty; the same for `rdf:Alt` items without language in generic nodes, where empty items are listed too | `default_text_unreadable`, `node_alt_unreadable` |
| C47 | two fields with the same local name in one model (`dc:source`, `riffinfo:source` in `RiffInfo`): the path of the second reads and writes the first | `same_local_name_confused` |
| C47 | fields of a namespace for which the model is not registered (`dc:subject` in `RiffInfo`) are listed under paths that lead elsewhere | `foreign_field_unreadable` |
| C47 | a field whose `MarshalText` gives nil drops all entries of its struct | `nil_text_hides_all` |
| C47 | items of text arrays in generic nodes are not listed although `GetPath` reads them | `text_items_not_listed` |
| C48 | texts in the listed layout `2006-01-02T15:04:05-0700` (`2011-02-15T10:15:14+0100`) are always refused: `repairTZ` takes the offset for one with a one-digit hour and puts a zero into it; with a spare zero (`+00100`) they are read | `date_layout_broken`, `date_spare_zero` |
| C48 | fractions of seconds are read but never written; offsets with seconds change the instant; years of five digits and the offset `+24:60` can not be read back | `date_fraction_lost`, `date_offset_seconds_lost`, `date_year_unread`, `date_offset_unread` |
| C48 | `Time.UnmarshalText` of an empty text keeps the old value (`Date.UnmarshalText` resets it) | `time_zero` |
| C49 | setting a tag of a language alternative (`dc:title`) or of an array without text form succeeds and does nothing; reading it is an error | `tag_set_ignored`, `tag_get_refused` |
| C49 | setting a tag of a string array adds to it: the same text set twice reads as the text twice | `tag_strings_get` |
| C49 | a refused text turns a nil pointer into a pointer to a zero value | `tag_refused_allocates` |
| C49 | asking for a text by language panics for fields that are no array, bytes or pointer (`&&` for `||` in native.go:227) | `locale_get_panics` |
| C49 | listing panics at the first non-empty byte slice or array without text form (the type of the struct is passed for the type of the field, native.go:333) | `tag_list_panics` |
| C50 | a second change to a version adds its part only: action, modifier and date are dropped | `later_modifier_lost` |
| C50 | `SetPreviousVersionId` sets the last version; `GetPreviousVersionId` reads the one before | `set_previous_sets_last` |
| C50 | `DeleteIndex(len(x))` panics | `delete_index_panics` |
| C51 | an identifier with a scheme is written as value and scheme side by side and read from the first of them alone: it reads back empty | `identifier_scheme_lost` |
| C51 | the text `scheme:id` reads as the value, without scheme | `identifier_text` |
| C51 | `IdentifierArray.Remove` doubles what precedes the identifier and drops what follows | `identifiers_remove` |
| C51 | width and height of thumbnails have each other's names | `thumbnail_exchanged` |
| C52 | an array of texts with the type `rdf:Alt` is read from JSON as an array of empty texts | `json_alt_array_lost` |
| C52 | an array of arrays is refused when read from JSON | `json_nested_array_refused` |
| C52 | a default text without a language of its own is lost in JSON if there are other languages | `json_alt_default_lost` |
| C53 | attributes outside of models become elements in JSON | `json_attributes_become_elements` |
| C53 | the order of top-level nodes is lost in JSON | `json_order_lost` |
| C53 | a namespace of only empty values, such as a pointer to an empty text, is lost in JSON; XMP keeps it | `json_empty_values_lost` |
| C53 | the names under which JSON stores namespaces are ignored when read | `json_model_names_ignored` |
| C54 | an empty byte array is written as empty text, which keeps the value before | `exif_bytes_empty_kept` |
| C54 | the number of values of a table is not compared with its columns and rows | `exif_table_size_unchecked` |
| C54 | a table whose columns times rows is negative crashes the program | `exif_table_panics` |
| C54 | conversion tables are read with one column name too few (models/exif/types.go:192), so complete tables are refused | `exif_oecf_names_missing`, `exif_oecf_refused` |
| C54 | Exif dates lose their zone but keep the clock: another moment | `exif_date_zone_lost` |
| C54 | sub-seconds are ignored when present and an error when absent (inverted condition, models/exif/types.go:124) | `exif_subsec_ignored` |
| C54 | sub-seconds below a tenth are written without their leading zeros, which makes them larger | `exif_subsec_iff` |
| C54 | several creators become one artist, joined by commas but split at semicolons | `exif_artists_merged` |
| C54 | the tool of a document is never taken over as software, and an absent tool erases the software (inverted condition, models/exif/model.go:294) | `exif_software_wrong`, `exif_software_lost` |
| C55 | an unknown genre in a list becomes the whole text of the list (models/id3/types.go:154-161 look at `value` instead of `v`) | `id3_genres_iff` |
| C55 | genre numbers wrap: 273 and -239 mean the same as 17 | `id3_genre_wraps` |
| C55 | an empty list of genres is read as one genre without name | `id3_no_genres` |
| C55 | dates of version 2.3 (day, month) are read as month, day: exchanged or refused unless both are equal (models/id3/types.go:39) | `id3_date_iff` |
| C55 | text after the total of a track number is ignored | `id3_track_rest` |
| C55 | the genre of version 2.2 (TCO) becomes the media type (models/id3/model.go:367) | `id3_content_type_misplaced` |
| C55 | a date and a time of version 2.3 without recording time crash the exchange: `time.Date` is called without location (models/id3/model.go:172) | `id3_sync_panics`, `id3_sync_panics_text` |
| C55 | tags without compilation mark erase the mark of the document | `id3_compilation_erased` |
| C55 | carried over and back, totals of tracks are lost and genres are doubled | `id3_sync_total_lost`, `id3_sync_genres_doubled` |
| C56 | a text standing twice in a list is deleted once (models/ixml/enum.go:52-62 remembers the last place only) | `ixml_del_repeated`, `ixml_still_contained` |
| C56 | deleting from a copy of a set changes the original, the predefined sets included; adding to the copy afterwards replaces the last member of the original (models/ixml/enum.go:391-401) | `ixml_copy_changed`, `ixml_predefined_changed`, `ixml_copy_added` |
| C56 | a set of three or more members minus itself keeps its second member (models/ixml/enum.go:409-413) | `ixml_sub_self`, `ixml_sub_self_lcr` |
| C56 | the empty text is read as a list with one empty member, so an empty take type is not the default (models/ixml/enum.go:106-117) | `ixml_empty_list` |
| C56 | the function of the first X/Y track has a blank at its end, so `X-X_Y` is not in the predefined set (models/ixml/enum.go:290) | `ixml_xy_blank` |
| C56 | an existing sync point keeps its upper half in the upgrade and so stands for another count (models/ixml/model.go:201) | `ixml_upgrade_high` |
| C56 | the frame of the start timecode is always zero for rates such as 25/1 (models/ixml/types.go:158 divides by 1000) | `ixml_frames_lost`, `ixml_frames_lost_25` |
| C56 | a timecode rate of 0/1 without sample rate crashes the exchange with a division by zero | `ixml_timecode_panics`, `ixml_timecode_panics_zero` |
| C56 | 59.94 non-drop timecodes are named as drop timecodes (models/xmp_dm/types.go:570) | `ixml_5994_drop` |
| C56 | start timecodes with other rates, such as 48, count as absent and are not written | `ixml_start_dropped` |
| C56 | values absent from the chunk erase those of the document (models/ixml/model.go:118-123) | `ixml_sync_erases` |
| C57 | frame counts are compared by count * rate instead of count / rate, so that markers with equal counts and different rates are always sorted the wrong way round (models/xmp_dm/types.go:197-199) | `marker_less_reversed`, `marker_less_wrong`, `marker_sort_wrong` |
| C57 | the mark `maximum` is smaller than every count | `marker_maximum_first` |
| C57 | an empty text and a denominator of zero are read as one frame in a second (models/xmp_dm/types.go:295-299) | `video_rate_one` |
| C58 | tags of user data that begin with the copyright sign have five bytes in Go's strings, so that the test for four bytes misses them: 70 of 118 tags are ignored without an error (models/qt/model.go) | `qt_copyright_ignored`, `qt_copyright_tags` |
| C58 | CanTag asks whether the prefix begins with the tag instead of the other way round, so that no tag of QuickTime metadata, player or professional applications is known | `qt_can_tag`, `qt_can_tag_wrong` |
| C58 | `XMP_` and `iXML` are looked up as user data and refused; other unknown tags are ignored; unlisted metadata tags are dropped although there is a field for them | `qt_embedded_refused`, `qt_unknown_ignored`, `qt_extension_dropped` |
| C58 | ListTags lists nothing | `qt_lists_nothing` |
| C59 | RiffInfo names the tags IARL and ICMS twice, so that reading its tags always fails and no RIFF tag can be read, set or listed (models/riff/model.go) | `dup_tags_fail`, `riff_tags_fail`, `riff_lookup_fails` |
| C59 | the items of a language alternative are all stored as `eng`, so that only the first can be read | `riff_alt_first` |
| C59 | source medium and software are overwritten by empty texts; writing to XMP and reading back loses the medium | `riff_sync_clears`, `riff_medium_lost` |
| C59 | an empty text is read as a list with one empty item | `riff_list_empty` |
| C60 | a whole number of seconds beyond 2^63 nanoseconds overflows and is read as a wrong duration without an error (xmp/units.go:234-236, 274-276) | `duration_seconds_wrong` |
| C60 | white space around a whole number makes it unreadable, although it is allowed everywhere else (xmp/units.go:242-250) | `duration_seconds_spaces` |
| C60 | Truncate rounds away from zero, so that the longest duration becomes negative days (xmp/units.go:281-291) | `duration_round_partial`, `duration_round_wraps` |
| C61 | the zero point of QuickTime is written as nothing, which is refused (models/qt/types.go:82-108) | `qt_point_zero` |
| C61 | points with a comma and a blank, as Camera Raw writes them, are refused by QuickTime, and vice versa without the blank (models/qt/types.go:90-92, models/crs/types.go:49) | `qt_point_comma_blank`, `crs_point_no_blank` |
| C61 | fields of eight digits with the highest bit set are refused, since they are read as signed numbers of 32 bits; missing fields are zero without an error (models/itunes/types.go:40-59) | `smpb_high_refused`, `smpb_missing` |
| C61 | the documented ranges of preferences are not checked (models/pm/model.go:153-157) | `prefs_unchecked` |
| C61 | coordinates like `+43.5968+005.4797+362.904/`, the example of the code, are split at the signs so that the latitude is empty and all values move by one; with negative values both coordinates end up in the latitude; without a name they are ignored (models/qt/qt_metadata.go:142-161) | `location_shifted`, `location_west`, `location_no_name` |
| C62 | `X_Software` of TIFF is read from the wrong place but never moved to the right one, against the comment (models/tiff/model.go:121-161) | `tiff_software_ignored` |
| C62 | `X_Artist` is split at commas without trimming, so that names begin with a blank (models/tiff/model.go:131-133) | `tiff_artist_blanks` |
| C62 | reading replaces title, author, subject, artists, dates and tool by empty values if the document has the models without values (models/pdf/model.go:82-94, models/tiff/model.go:107-113) | `pdf_erased`, `tiff_erased` |
| C63 | each write/read cycle adds one more `rdf:parseType` to a named extension; from the second write on the XML has duplicate attributes (xmp/xmp_ext.go:184-186, 196) | `named_attr_grows`, `named_second_write_malformed` |
| C63 | of named extensions with the same name only the last is written (xmp/xmp_ext.go:187) | `named_same_name_lost` |
| C63 | the text of named extensions is lost when reading and writing (xmp/xmp_ext.go:181-201) | `named_text_lost` |
| C63 | foreign properties given as attributes of an extension are read but not written (xmp/xmp_ext.go:59-68, 81-85) | `ext_attribute_lost`, `ext_attrs_dropped` |
| C63 | an attribute of an unknown prefix fails the whole extension, an element of an unknown prefix without own name is reduced to its children (xmp/xmp_ext.go:81-85, 59-68) | `ext_unknown_attribute_fails`, `ext_unknown` |
| C64 | bytes that are a base64 text are not encoded: the text does not tell whether it has to be decoded (xmp/marshal.go:709-722) | `raw_not_injective`, `raw_no_inverse`, `raw_set_iff` |
| C64 | byte slices are written into documents without encoding, against `ToRawString` (xmp/marshal.go:604-622, 697-722) | `raw_written_iff` |
| C65 | a `ResourceRef` with only `ManageUI` is not written (models/xmp_mm/types.go:44-61) | `ref_lost`, `ref_zero_iff` |
| C65 | `CFAPattern` and `DeviceSettings` with no columns or no rows lose their values (models/exif/types.go:217-219, 268-270) | `matrix_write` |
| C65 | a `Flash` of value 0 is not written although its fields are marked `empty` (models/exif/types.go:309-343) | `flash_lost` |
| C65 | width and height of thumbnails are swapped (models/xmp_base/types.go:172-173) | `thumbnail_swapped` |
| C66 | minutes just below the next degree are written as 60.0000000 (models/exif/types.go:386-393) | `coord_sixty` |
| C66 | coordinates with negative parts get two signs besides the direction (models/exif/types.go:386-394) | `coord_negative` |
| C66 | the sign of a decimal coordinate is lost (models/exif/types.go:365) | `coord_sign_lost` |
| C66 | no negative decimal fraction is read as its value (xmp/xmp_types.go:578-579) | `decimal_negative_wrong` |
| C66 | an invalid time stamp moves the date by one hour, one minute and one second (xmp/xmp_types.go:521-523) | `stamp_invalid` |
| C67 | an identifier without text in front of the list stops the collection, and the document is marked as changed (xmp/path.go:858-862) | `empty_identifier_blocks` |
| C67 | a first identifier that equals the bare text of a source hides it (xmp/sync.go:206-247 compares before converting) | `bare_identifier_hides` |
| C67 | the identifiers `qt:GUID`, `qt:ISRCCode`, `qt:ContentID` and `qt:ClipID` are never found (models/xmp_base/model.go:96-99) | `quicktime_ids_missed` |
| C68 | bytes that are not UTF-8, such as Latin-1 texts from other metadata, are replaced without an error when a document is written as JSON (xmp/json.go:114) | `latin1_lost`, `json_text_survives_iff` |
| C68 | values nested more than 10000 deep are written as JSON but cannot be read (xmp/json.go:114, 236) | `deep_json_refused` |
| C69 | control characters and bytes that are not UTF-8 in values are replaced by U+FFFD without an error when a document is written (xmp/marshal.go:212-271) | `xml_text_lost`, `control_replaced` |
| C69 | names of nodes and attributes are written unchecked: a member `plain:a b` of a JSON document (xmp/json.go:291-320) is written as XML that can not be read, and an attribute can become two (xmp/node.go:339-365) | `blank_name_unreadable`, `blank_name_document`, `attribute_injected` |
| C70 | a start marker in the bytes before a packet, without a packet of its own, hides the packet (xmp/reader.go:73-91) | `stray_marker_hides` |
| C71 | `xmp_tpg` uses the prefix `xmpG` that only `xmp_base` registers, `dji` uses `tiff` that only `tiff` registers; documents with such a field cannot be written (xmp/marshal.go:412-415, 465-468) | `used_prefixes_unknown`, `unknown_prefix_not_written` |
| C71 | with `tiff` imported the name of a drone is read back into the TIFF model and the DJI model has lost it (models/dji/dji.go:103) | `drone_name_moves` |
| C71 | importing `models` does not register digiKam (models/import.go:18-41) | `digikam_not_registered` |
| C71 | a model of a program's own for a shipped prefix makes `FindModel` panic and `MakeModel` return nil without an error (e.g. models/dc/model.go:35-49) | `own_model_breaks_access` |
| C72 | 14 structs are written as their fields but read with `UnmarshalText`, so that all their values are read as one: exif OECF, CFAPattern, device settings, six types of id3, iTunes SMPB, locations of mp4 and qt (e.g. models/id3/types.go:225-228, models/exif/types.go:177-204) | `shipped_mismatches`, `struct_read_as_text` |
| C72 | 3 attributes have types that can not be written as attributes (models/id3/types.go:262, models/itunes/movieinfo.go:23, models/xmp_dm/types.go `Track`) and the marker types of id3 and xmp_dm are written but not read | `shipped_mismatches`, `shipped_unsound` |
| C72 | riff alternatives whose default has a language are read with an item more and a default without language (models/riff/types.go:60-62) | `riff_alt_split` |
| C72 | 54 fields of dji, exif, pdf, riff and tiff with a prefix of another namespace are never set by reading | `foreign_never_read`, `shipped_foreign_lost` |
| C73 | 89 tags can be set to any text without error and nothing is stored, e.g. Dublin Core `Title`, `Description`, `Rights`, TIFF `Copyright`, PDF `Title`, most ID3 frames that are no texts | `shipped_set_silent` |
| C73 | ten tags can be set but never read; for the GPS coordinates of Exif `CanTag` is always false | `shipped_tags_unread`, `exif_gps_never_can` |
| C73 | the 19 tags of `ExifEXInfo` are under the key `exif`, its namespace is `exifEX`: none is known (models/exif/model.go:417-437) | `exifEX_tags_unknown` |
| C73 | 15 fields of `ExifInfo` are known to `CanTag` by names with capitals, which `GetTag` and `SetTag` make lower case: they can not be reached; tags with capitals work but `CanTag` denies them | `exif_untagged_never_set`, `exif_can_tag_case` |
| C73 | the older tags of `QtMetadata` are second parts with the same key, which are not looked at (models/qt/qt_metadata.go:43-106); they and all unknown tags of ID3, iTunes and QuickTime metadata are set without error and without effect | `qt_second_tags_lost`, `shipped_tag_others` |
| C73 | `SetLocaleTag` of Exif and ID3 always fails, `GetLocaleTag` panics for their strings and numbers | `locale_tags_useless` |
| C73 | `ListTags` panics for non-empty bytes: ID3 `MCDI`, iTunes `iTunNORM`, MP4 `thmb` | `shipped_list_panics` |
| C76 | a URI given by `rdf:resource`, or with qualifiers, is read as the empty URI without error, although the comment says that both are supported: xmp/xmp_types.go:453 asks for the space `rdf`, the parser gives the URI of RDF | `uri_resource_lost`, `uri_qualified_lost` |
| C76 | a text with qualifiers (`rdf:value`) is read as the empty text; a number with qualifiers makes the document unreadable (xmp/unmarshal.go:280-286) | `qualified_text_lost`, `qualified_number_refused` |
| C76 | a struct with an element or attribute that its type does not know makes the document unreadable (xmp/unmarshal.go:250-253, 270-273) | `unknown_entry_refused`, `unknown_entry_refused_document` |
| C76 | a default namespace `xmlns="..."` in a description makes the document unreadable: it is taken for a property (xmp/unmarshal.go:521-533) | `default_namespace_refused` |
| C77 | one truth value other than `true` or `false` (empty, `1`, with a blank) or one unknown or empty timecode flag refuses the whole chunk (models/ixml/types.go:39-49, models/ixml/enum.go:433-442) | `ixml_bool_refuses_chunk`, `ixml_flag_refuses_chunk` |
| C77 | an upgraded chunk keeps its old version number (models/ixml/model.go:169-215) | `ixml_version_stays` |
| C77 | unset rates are written as `0/0` and an empty mix with every track: `omitempty` has no effect on structs (models/ixml/types.go:132-145, 186-193); the number of items is not compared with the items (models/ixml/types.go:72-96, 196-220) | `ixml_unset_rates_written`, `ixml_count_ignored` |
| C78 | setting a property that the struct in an array does not have succeeds and makes the saved file unreadable: the array is written twice and structs refuse unknown elements (xmp/path.go:527-530, xmp/unmarshal.go:270-273) | `unknown_item_unreadable` |
| C79 | `-quiet` does not silence `-path` (cmd/xmpinfo.go:173-181) | `quiet_prints_paths` |
| C79 | with `-orig -all` the other outputs that are asked for are not printed (cmd/xmpinfo.go:117-122) | `all_hides_others` |
| C79 | `-all` does nothing for `-json`, `-xmp` and `-path`: only the first document is shown (cmd/xmpinfo.go:117-123) | `all_shows_first` |
| C79 | a sidecar named `.XMP` without packet markers gives no output and no error (cmd/xmpinfo.go:102-116) | `other_extension_silent` |
| C82 | a language that is one text keeps the white space around it, elements of arrays do not (models/dc/types.go:58-59, xmp/unmarshal.go:508-509) | `locales_untrimmed` |
| C84 | a bare name counts as a prefix: `MatchAttrName` and `MatchXMLName` hold for it, `Path.MatchNamespace` does not, and `Split(Expand(""))` is the prefix (xmp/namespace.go:118-138, 207-219) | `bare_name_matches` |
| C84 | the decoder looks up unknown namespaces by the local name as if it were a prefix: `<x:dc xmlns:x="urn:other">` is read as `dc:dc` (xmp/unmarshal.go:389-398; the general form of `translate_misnamed`, C36) | `foreign_captured` |
| C85 | the `Value` of a timecode is ignored by both encoders: one that has only a value is saved as 00:00:00:00 (models/xmp_dm/types.go:646-650, 677-681) | `timecode_value_lost` |
| C85 | a timecode that has only numbers counts as zero and is not saved (models/xmp_dm/types.go:642-644) | `timecode_numbers_lost` |
| C85 | a timecode without value is read as 00:00:00:00 (models/xmp_dm/types.go:659-661, 694-696) | `timecode_missing` |
| C86 | a list of one number, and every list that begins with two zeros, is dropped on saving without an error (models/tiff/types.go:50-52) | `subSampling_lost` |
| C87 | `Log.Error(v)` and its siblings format with a single `%s`, which the level takes: the message appears as `%!(EXTRA string=...)` on a line of its own (xmp/log.go:88-92) | `log_plain_mangled` |
