{"id": "C01", "title": "Version ordering is a total order", "statement": "Before, After and Equal on versions form a strict total order that agrees with comparing (major, minor, patch) lexicographically: exactly one of Before/Equal/After holds, Before is transitive and irreflexive, and After is the converse of Before.", "quantifier": "all triples of versions with arbitrary integer components", "why_tests_cant": "The order laws relate every pair and triple of versions; a test samples a few pairs.", "anchors": ["xmp/semver.go: Version.Equal, Version.Before, Version.After"]}
{"id": "C02", "title": "Version text round trip", "statement": "Parsing the printed form of a version with non-negative components gives the same version back; parsing succeeds only on one to three dot separated decimal integers and missing components are zero.", "quantifier": "all versions with components 0 .. 2^63-1 and all input strings", "why_tests_cant": "The input space is unbounded strings and 2^189 versions.", "anchors": ["xmp/semver.go: ParseVersion, Version.String"]}
{"id": "C03", "title": "Version ranges of struct tags", "statement": "A version lies in the range [min,max] exactly when min <= v <= max, in [min,-] when min <= v, in [-,max] when v <= max (the tag documentation says 'before and including'), and an unbounded range contains every version; the unset version is in every range.", "quantifier": "all versions and all range bounds", "why_tests_cant": "Bound combinations times versions is infinite; existing tests cover none of the half open ranges.", "anchors": ["xmp/semver.go: Version.Between", "xmp/typeinfo.go: structFieldInfo (version tag)", "xmp/unmarshal.go: Decoder.findStructField"]}
{"id": "C04", "title": "Qualified name split and expand", "statement": "Expanding a local name in a namespace and splitting it again gives back the prefix and the local name; splitting happens at the first colon and a name without colon is its own prefix and its own local part.", "quantifier": "all prefixes without colon and all local names", "why_tests_cant": "Unbounded strings.", "anchors": ["xmp/namespace.go: Namespace.Expand, stripPrefix, getPrefix, hasPrefix"]}
{"id": "C05", "title": "XMP path segment algebra", "statement": "Len equals the number of Fields; Push followed by Pop restores path and segment; PopFront yields the segments in order, one at a time, until the path is empty, and switching namespaces on prefixed segments.", "quantifier": "all paths built from a prefix and a list of segments without separator characters", "why_tests_cant": "Paths of any depth with any segment text.", "anchors": ["xmp/path.go: Path.Push, Path.Pop, Path.PopFront, Path.Fields, Path.Len"]}
{"id": "C06", "title": "Array index path segments are readable", "statement": "A segment made by appending an index or a language to a field name parses back to exactly that field name and that index or language, for every index and every name; indexes given in any other way do not change the name.", "quantifier": "all field names without '[', all non-negative indexes, all language tags", "why_tests_cant": "Unbounded names and indexes; the nested array form is not covered by tests.", "anchors": ["xmp/path.go: Path.AppendIndex, Path.AppendIndexString, parsePathSegment"]}
{"id": "C07", "title": "Path listings have no duplicates", "statement": "Removing duplicates from a sorted path listing leaves every non-empty path exactly once, with the value listed first for it, in sorted order, and drops no non-empty path.", "quantifier": "all lists of path/value pairs", "why_tests_cant": "Needs induction over the listing; tests look at fixed listings.", "anchors": ["xmp/path.go: PathValueList.Unique, byPath, Document.ListPaths"]}
{"id": "C08", "title": "Path listing difference is exact", "statement": "The difference of two listings reports a path as created, deleted or replaced exactly when it is only in the new one, only in the old one, or in both with different values; a listing differs from itself in nothing.", "quantifier": "all pairs of listings with distinct paths and non-empty values", "why_tests_cant": "All pairs of listings; the early return for empty listings is only visible when quantifying over all lists.", "anchors": ["xmp/path.go: PathValueList.Diff, PathValueList.AddFlags, PathValueList.Find"]}
{"id": "C09", "title": "Sync flag parsing", "statement": "Parsing a comma separated flag list gives the union of the named flags, independent of order, repetition and letter case, and fails exactly when some token names no flag.", "quantifier": "all strings", "why_tests_cant": "Unbounded strings and list orders.", "anchors": ["xmp/sync.go: ParseSyncFlag, ParseSyncFlags, SyncFlags.UnmarshalText"]}
{"id": "C10", "title": "Namespace registry is latest-wins", "statement": "After any history of registrations a prefix (or URI) resolves to the namespace most recently registered under it, resolves to nothing if none was, and a group lists exactly the namespaces registered for it in order.", "quantifier": "all finite histories of Register calls", "why_tests_cant": "Quantifies over histories of unbounded length.", "anchors": ["xmp/registry.go: Registry.RegisterNamespace, GetNamespace, GetPrefix, Short, GetGroupNamespaces"]}
{"id": "C11", "title": "Filter text round trip", "statement": "Printing a filter and parsing the text gives a filter that keeps and removes the same namespaces, for filters over registered prefixes that are not also group names.", "quantifier": "all filters and all registries", "why_tests_cant": "Unbounded filters and registries.", "anchors": ["xmp/filter.go: ParseFilterStrict, ParseFilter, Filter.String"]}
{"id": "C12", "title": "Filters remove exactly what they should", "statement": "After removing a namespace list none of the nodes stored under those prefixes survives and all other nodes keep their content and order; after filtering to a namespace list only nodes of listed (or unresolvable) namespaces survive.", "quantifier": "all documents and all namespace lists", "why_tests_cant": "Any number of nodes in any order with duplicates.", "anchors": ["xmp/document.go: Document.RemoveNamespace, RemoveNamespaces, FilterNamespaces", "xmp/filter.go: Filter.Apply"]}
{"id": "C13", "title": "Model lookup after document operations", "statement": "After any history of adding, making and removing models, looking up a namespace finds the model added last for it and not removed since, and making a model twice returns the same model.", "quantifier": "all finite histories of document operations", "why_tests_cant": "Histories of unbounded length.", "anchors": ["xmp/document.go: Document.AddModel, MakeModel, FindModel, RemoveNamespace"]}
{"id": "C14", "title": "Language alternatives keep one default", "statement": "After any sequence of additions and updates starting from an empty or well formed text alternative there is exactly one default item and it comes first; no operation panics.", "quantifier": "all operation sequences over all language tags and values", "why_tests_cant": "Invariant over histories of unbounded length.", "anchors": ["xmp/array.go: AltString.EnsureDefault, AddDefault, AddUnique, Add, Set, RemoveLang, NewAltString"]}
{"id": "C15", "title": "Language alternative lookups see updates", "statement": "Setting the text of a language makes a lookup of that language return the text and leaves the text of every other language unchanged; removing a language makes it absent.", "quantifier": "all text alternatives, languages and values", "why_tests_cant": "All alternatives of any size.", "anchors": ["xmp/array.go: AltString.Set, Get, Index, RemoveLang, Default"]}
{"id": "C16", "title": "Language alternatives survive XMP serialisation", "statement": "Writing a well formed text alternative as rdf:Alt and reading it back preserves the default text and the text of every language.", "quantifier": "all well formed text alternatives", "why_tests_cant": "Unbounded alternatives; items with equal texts are merged on reading.", "anchors": ["xmp/array.go: MarshalArray, AltString.UnmarshalXMP, AltItem"]}
{"id": "C17", "title": "Ordered and unordered string arrays grow as sets/lists", "statement": "Add appends every non-empty value in order, AddUnique never introduces a duplicate, and afterwards exactly the values added (and no empty ones) are contained.", "quantifier": "all finite sequences of Add and AddUnique calls", "why_tests_cant": "Histories of unbounded length.", "anchors": ["xmp/array.go: StringList.Add, AddUnique, Index, Contains, NewStringList, StringArray"]}
{"id": "C18", "title": "Removing a value from a string array", "statement": "Remove deletes the first occurrence of the value and keeps all other elements in order.", "quantifier": "all arrays and values", "why_tests_cant": "Tests never call Remove; the property ranges over all arrays.", "anchors": ["xmp/array.go: StringList.Remove, StringArray.Remove", "models/xmp_base/types.go: IdentifierArray.Remove"]}
{"id": "C19", "title": "Arrays survive XMP serialisation", "statement": "Writing an array of strings as rdf:Seq/rdf:Bag and reading it back yields the same elements in the same order, and reading an array of the wrong kind or a non-array reports an error or the documented single value.", "quantifier": "all lists of trimmed strings", "why_tests_cant": "Lists of any length with any contents.", "anchors": ["xmp/array.go: MarshalArray, UnmarshalArray", "xmp/marshal.go: Encoder.EncodeElement, marshalSimple"]}
{"id": "C20", "title": "Generic node trees keep names unique", "statement": "Adding nodes or attributes replaces an existing entry of the same name and otherwise appends, so any history of additions leaves at most one entry per name holding the value added last, and lookups return it.", "quantifier": "all finite histories of AddNode / AddAttr calls", "why_tests_cant": "Histories of unbounded length.", "anchors": ["xmp/node.go: Node.AddNode, AddAttr, FindNodeByName, GetAttr, RemoveNode"]}
{"id": "C21", "title": "Pooled nodes are never shared and always blank", "statement": "Under every history of taking nodes from the pool and releasing them once, two nodes in use are never the same object, a node taken from the pool has no content of its previous use, and allocations minus frees balance with nodes in use and in the pool.", "quantifier": "all finite histories of node creation and release, any pool capacity", "why_tests_cant": "Aliasing shows up only for particular histories; a test cannot enumerate them.", "anchors": ["xmp/node.go: NewNode, Node.Close, copyNode, nodePool", "xmp/dump.go"]}
{"id": "C22", "title": "Reading a path after setting it", "statement": "After successfully setting a path on a generic node tree to a non-empty value, reading the path returns the value; paths with a different first segment are unaffected.", "quantifier": "all node trees, paths and values", "why_tests_cant": "Trees of any shape and paths of any depth.", "anchors": ["xmp/node.go: Node.SetPath, Node.GetPath"]}
{"id": "C23", "title": "Size limit of the encoder is respected", "statement": "With a maximum size set, the encoder never hands more than that many bytes to the writer, what is written is a prefix of the unlimited output, and an overflow error is reported exactly when bytes were dropped - for every way the output is split into writes.", "quantifier": "all limits, all outputs, all splits into write calls", "why_tests_cant": "Quantifies over every chunking of the output stream.", "anchors": ["xmp/marshal.go: countWriter.Write, Encoder.SetMaxSize"]}
{"id": "C24", "title": "Padded packets have exactly the requested size", "statement": "With packet wrapping, padding and a maximum size enabled, encoding either fails with an overflow or emits exactly the maximum size, ending in the packet trailer.", "quantifier": "all document bodies and all limits", "why_tests_cant": "All body lengths relative to the limit, including the boundary ones.", "anchors": ["xmp/marshal.go: Encoder.Encode (packet header, padding, footer)"]}
{"id": "C25", "title": "Packet scanning", "statement": "Scanning a byte stream returns only byte ranges that start with the packet header and end with the packet trailer, in stream order and without overlap, and the result does not depend on how the reader delivers the bytes.", "quantifier": "all byte streams and all ways of splitting them into reads", "why_tests_cant": "Ranges over all read schedules.", "anchors": ["xmp/reader.go: ScanPackets, splitPacket, isXmpPacket, Read"]}
{"id": "C26", "title": "Path update permission flags", "statement": "Setting a path changes the document only as permitted: a missing value is created only with a create/append/unique flag, an existing value changed only with replace/delete/append/unique, an empty value only deletes with the delete flag; otherwise the document is unchanged and an error is reported unless NOFAIL is set.", "quantifier": "all flag combinations, current values, new values and documents", "why_tests_cant": "All combinations of flags with all document states.", "anchors": ["xmp/path.go: Document.SetPath", "xmp/sync.go: SyncFlags"]}
{"id": "C27", "title": "Property synchronisation decision", "statement": "Syncing a source property to a target writes the target only when the flags allow the particular transition of source and target values, applies the converter, never writes an equal value, and never modifies the source.", "quantifier": "all flag combinations, source values, target values and converters", "why_tests_cant": "All combinations of flags and values.", "anchors": ["xmp/sync.go: Document.Sync, SyncMulti"]}
{"id": "C28", "title": "Struct metadata cache is correct under concurrency", "statement": "Every lookup of struct field metadata returns the metadata of the requested type and namespace whatever other goroutines do concurrently.", "quantifier": "all interleavings of any number of concurrent lookups", "why_tests_cant": "Schedules cannot be enumerated by tests.", "anchors": ["xmp/typeinfo.go: getTypeInfo, tinfoMap, tinfoNsMap, tinfoLock"]}
{"id": "C29", "title": "Simple value text codecs", "statement": "Printing and parsing booleans, optional booleans, optional integers, split integers and GUID-like strings are inverse on their documented domains and reject everything else.", "quantifier": "all values and all input strings", "why_tests_cant": "Unbounded strings and 2^64 integers.", "anchors": ["xmp/xmp_types.go: Bool", "xmp/units.go: NullInt, NullBool, NullString, SplitInt"]}
{"id": "C30", "title": "Rational numbers", "statement": "Printing and parsing a rational are inverse; the greatest common divisor used for reduction divides both arguments and is the greatest such, so reduced fractions have equal value in lowest terms.", "quantifier": "all 64 bit numerators and denominators", "why_tests_cant": "2^128 inputs.", "anchors": ["xmp/xmp_types.go: Rational.String, Rational.UnmarshalText, gcd, FloatToRational"]}
{"id": "C31", "title": "Slice deletion and growth of array properties", "statement": "Deleting an array element by path keeps the remaining elements in order, and growing an array to reach an index preserves existing elements and fills the gap with empty values.", "quantifier": "all arrays, indexes and histories of deletes and sets", "why_tests_cant": "Stale backing-array contents only show after particular histories.", "anchors": ["xmp/path.go: SetModelPath (slice deletion), growSlice"]}
{"id": "C32", "title": "Typed model paths: read after write", "statement": "After successfully setting a path of a typed model, reading that path returns the value, and other fields of the model are unchanged.", "quantifier": "all model types built from structs, arrays, text alternatives and scalars, all values and paths", "why_tests_cant": "All model types and values.", "anchors": ["xmp/path.go: GetModelPath, SetModelPath"]}
{"id": "C33", "title": "Typed models survive XMP serialisation", "statement": "Marshalling a model to an XMP node tree and unmarshalling the tree gives an equal model.", "quantifier": "all model types built from nested structs, arrays, text alternatives and scalars and all their values", "why_tests_cant": "Unbounded types and values.", "anchors": ["xmp/marshal.go: marshalValue, marshalAttr, marshalSimple", "xmp/unmarshal.go: unmarshal, unmarshalAttr, setValue, findStructField"]}
{"id": "C34", "title": "JSON form of node trees", "statement": "Converting a generic node tree to JSON and back preserves element names, nesting, values and array contents.", "quantifier": "all node trees of the documented shape", "why_tests_cant": "Trees of any shape.", "anchors": ["xmp/json.go: nodeToJson, jsonToNode"]}
{"id": "C35", "title": "Locale tag lists", "statement": "A list of language-qualified tags written as XMP and read back has the same keys, languages and values.", "quantifier": "all tag lists", "why_tests_cant": "Lists of any length with any keys.", "anchors": ["xmp/native.go: TagList.MarshalXMP, TagList.UnmarshalXMP"]}
{"id": "C36", "title": "Decoding does not depend on prefix choice", "statement": "Names in a document are translated through their namespace URI, so two documents differing only in the prefixes bound to the same URIs decode to the same qualified names, and translation is idempotent.", "quantifier": "all namespace bindings and names", "why_tests_cant": "All choices of prefixes.", "anchors": ["xmp/unmarshal.go: Decoder.translate, addNamespace", "xmp/node.go: Node.translate"]}
{"id": "C37", "title": "String array text codec", "statement": "Joining string lists to text and reading the text back gives the same strings, and any line ending convention is read the same.", "quantifier": "all lists of non-empty strings without line breaks", "why_tests_cant": "Unbounded lists and strings.", "anchors": ["xmp/array.go: StringList.MarshalText, UnmarshalText"]}
{"id": "C38", "title": "Media frame counts, rates and parts", "statement": "Printing and parsing frame rates, frame counts and part lists are inverse on well formed values.", "quantifier": "all 64 bit counts and rates, all part paths", "why_tests_cant": "2^64 values and unbounded strings.", "anchors": ["models/xmp_dm/types.go: FrameRate, FrameCount, Part, PartList"]}
{"id": "C39", "title": "Timecodes", "statement": "A timecode printed and unpacked again gives the same hours, minutes, seconds and frames, both for drop-frame and non-drop-frame separators.", "quantifier": "all non-negative component values", "why_tests_cant": "Unbounded values.", "anchors": ["models/xmp_dm/types.go: Timecode.String, Timecode.Unpack"]}
{"id": "C40", "title": "Content ratings round trip", "statement": "Printing a content rating and parsing it again gives the same rating.", "quantifier": "all ratings whose components contain no separator", "why_tests_cant": "Unbounded strings; the existing tests never print and re-read a rating.", "anchors": ["models/itunes/types.go: ContentRating.String, UnmarshalText", "models/qt/types.go: ContentRating"]}
{"id": "C41", "title": "Dirty tracking of documents", "statement": "A document is marked dirty after every successful change and clean only after its models were written back; closing or syncing a clean document does not call the models.", "quantifier": "all histories of document operations", "why_tests_cant": "Histories of unbounded length.", "anchors": ["xmp/document.go: SetDirty, IsDirty, syncToXMP, SyncModels"]}
{"id": "C42", "title": "Merging documents", "statement": "Merging with the add flags never changes or deletes a value already present in the destination and afterwards every listed source path that was absent is present.", "quantifier": "all documents", "why_tests_cant": "All pairs of documents.", "anchors": ["xmp/sync.go: Document.Merge"]}
{"id": "C43", "title": "Durations given as clock text are read as milliseconds", "statement": "A media time attribute such as 1:02:03.5 (hours, minutes and seconds, minutes and seconds, or seconds, with an optional fraction) is read as the duration it denotes in milliseconds, rounded down.", "quantifier": "all clock texts with integer components and fractions of any length", "why_tests_cant": "Unbounded numbers, optional parts and any number of digits in the fraction.", "anchors": ["models/xmp_dm/types.go: MediaTime.UnmarshalXMPAttr"]}
{"id": "C44", "title": "Struct tags mean what is documented", "statement": "The tag of a struct field gives its qualified name, its options and the range of versions for which it is written exactly as documented; malformed tags are errors; two fields with the same name are refused if and only if their version ranges overlap.", "quantifier": "all tags, field names, options in any order and all sequences of fields", "why_tests_cant": "Unbounded tags and combinations of options and ranges; the tests only use the tags that exist in the package.", "anchors": ["xmp/typeinfo.go: structFieldInfo, addFieldInfo"]}
{"id": "C45", "title": "Node trees survive their XML text", "statement": "Reading the XML written for a node tree gives the same tree: same elements in the same order, same attributes, and the text of each element up to surrounding white space, with and without indentation. Reading any XML element gives all of its text, whether or not comments, CDATA sections or child elements divide it.", "quantifier": "all trees of any depth, all attribute lists, all indentations; all element contents", "why_tests_cant": "Trees, texts and the ways to divide a text are unbounded; the tests compare a few files.", "anchors": ["xmp/node.go: Node.MarshalXML, Node.UnmarshalXML", "xmp/marshal.go: MarshalIndent"]}
{"id": "C46", "title": "Documents survive serialisation", "statement": "A document written with Marshal or MarshalIndent and read with Unmarshal is the same document: the same top-level nodes in the same order, every field of every model with its value, all attributes and elements outside of the models, the same about and toolkit, and every prefix stands for the same namespace. A well-formed XMP text that declares its namespaces on another element than rdf:Description is read like one that declares them there.", "quantifier": "all registries, all documents with any number of models and namespaces, registered or not, all orders in which Go visits its maps, all indentations", "why_tests_cant": "Documents combine models, unknown content and namespaces without bound, and the order of declarations depends on map iteration; the tests compare a few files with one model each.", "anchors": ["xmp/marshal.go: Encoder.Encode, Marshal, MarshalIndent", "xmp/unmarshal.go: Decoder.Decode, decodeNode, decodeAttribute, lookupNode", "xmp/node.go: Node.Namespaces", "xmp/document.go: Document"]}
{"id": "C47", "title": "Listed paths name all texts and read back", "statement": "ListPaths of a document succeeds and gives each text held by a model or by generic nodes exactly once, with its path, sorted by path, and nothing else; GetPath on every listed path gives exactly the listed value.", "quantifier": "all documents with any number of models and generic nodes of any depth, all struct types, arrays, alternatives and nested structs, all sorting functions that order by path", "why_tests_cant": "Types, values and node trees are unbounded and listing and reading are two independent traversals that have to agree on every name, index and language; the tests list a few files.", "anchors": ["xmp/path.go: Document.ListPaths, ListModelPaths, listPaths, GetPath, GetModelPath", "xmp/node.go: Node.ListPaths, Node.GetPath"]}
{"id": "C48", "title": "Dates survive as text and documented formats are read", "statement": "A date with a year of at most four digits and a zone offset of whole minutes, written with MarshalText and read with UnmarshalText, is the same wall clock time and offset up to fractions of a second; the zero date has no text and no text is the zero date. ParseDate accepts a text in any of its listed layouts and gives exactly the fields the text says, zones with one-digit hours, bare hours or a spare zero included, and every date it gives is a date of the calendar. The same holds for times of day.", "quantifier": "all dates, times and offsets, all 30 date layouts and 3 time layouts, all numbers of fraction digits", "why_tests_cant": "Layouts are tried one after the other on all texts, so that each text has to be refused by all earlier layouts or read the same by them; the tests have a handful of texts, and none in the layout that repairTZ breaks.", "anchors": ["xmp/xmp_types.go: Date.MarshalText, Date.UnmarshalText, ParseDate, repairTZ, dateFormats", "xmp/xmp_types.go: Time.MarshalText, Time.UnmarshalText, ParseTime"]}
{"id": "C49", "title": "Tags read what was set, and listings show what reads", "statement": "SetTag on a field that holds one text succeeds exactly if the text means a value of the field's type; then GetTag gives the text back if it is the usual text of the value, and no other tag changes. A refused text and an unknown name are errors that change nothing. Texts set for a language with SetLocaleTag read back for this language and leave the other languages alone. ListTags gives the tags of all fields in order, each with exactly the value that GetTag or GetLocaleTag gives.", "quantifier": "all struct types with distinct local names, all values, names and texts", "why_tests_cant": "Reading, writing and listing are three reflection based traversals over arbitrary types that have to agree; no test sets and reads all kinds of fields, none asks for languages of other fields, none lists arrays or bytes.", "anchors": ["xmp/native.go: GetNativeField, SetNativeField, GetLocaleField, SetLocaleField, ListNativeFields, findField", "models/*/model.go: GetTag, SetTag, CanTag, GetLocaleTag, SetLocaleTag, ListTags"]}
{"id": "C50", "title": "The version history tells all changes", "statement": "However an application switches versions and instances and records changes with AppendVersionHistory, the version list has one entry for each run of changes to one version, in order, that names all changed parts and tells action, agent, modifier and date of the first; neighbouring entries have different versions and the last entry is the current version. SelfResourceRef gives the identifiers of the document and the time of its last event. Deleting the reference found for a document keeps all others in order.", "quantifier": "all sequences of steps, all models, identifiers, texts and dates, all lists of references", "why_tests_cant": "Whether an entry is added or extended depends on the sequence of all earlier calls; tests have no history longer than one step, and no reference is ever deleted in them.", "anchors": ["models/xmp_mm/model.go: AddVersion, GetLastVersion, GetPreviousVersion, SetPreviousVersionId, SelfResourceRef, AppendVersionHistory", "models/xmp_mm/types.go: ResourceRefArray.Index, ResourceRefArray.DeleteIndex", "models/xmp_dm/types.go: NewPartList, PartList.Add"]}
{"id": "C51", "title": "Identifiers are read in all documented forms and survive", "statement": "An identifier is read from each of the three documented forms: a plain text, a description with value and scheme, a text with the scheme as attribute. An identifier that is written and read again is the same, in XMP and as text. AddUnique adds an identifier at the end unless one with this value is there; Remove removes it. Width and height of a thumbnail in a file are read as its width and height.", "quantifier": "all identifiers, schemes, element names and namespaces with these meanings, all arrays, all sizes", "why_tests_cant": "Tests have literal identifiers, none with a scheme; that writing and reading agree for all values and that arrays keep all other entries are statements over all inputs.", "anchors": ["models/xmp_base/types.go: Identifier.MarshalXMP, Identifier.UnmarshalXMP, Identifier.MarshalText, Identifier.UnmarshalText, IdentifierArray, Thumbnail", "models/xmp_base/model.go: AddID, AddIDWithScheme"]}
{"id": "C52", "title": "Typed values survive the JSON form", "statement": "A value of any model type that is written to a node, turned into JSON and read again is the same value, whatever order the entries of JSON objects come in: numbers, texts, language alternatives, arrays, pointers and nested structs with fields as attributes or elements.", "quantifier": "all types, all values that survive XML and whose alternatives have a default with a language of its own (or a single text), all orders of object entries, all names that are no markup", "why_tests_cant": "Attributes become elements, arrays lose their kind and alternatives are rewritten on the way; tests compare a few sample files, the statement is over all types and values and the random order of Go maps.", "anchors": ["xmp/json.go: nodeToJson, jsonToNode, isArrayItemType, getArrayType", "xmp/marshal.go: marshalValue", "xmp/unmarshal.go: unmarshal", "xmp/array.go: AltString.UnmarshalXMP, UnmarshalArray"]}
{"id": "C53", "title": "Documents survive the JSON form", "statement": "A document that is written as JSON and read again has the same top-level nodes with content: each has the same name, the same model with the same values, and other content that says the same, whatever order the entries of JSON objects come in. The about text and the toolkit survive; every prefix in use keeps its namespace.", "quantifier": "all documents whose nodes survive XMP, with content of the documented shapes and no namespace of only empty values, all registries and models, all orders of object entries", "why_tests_cant": "The encoder spreads the fields of models over namespaces and merges unknown content into them; the decoder puts all together from elements in the random order of Go maps. Tests compare sample files with one order.", "anchors": ["xmp/json.go: Document.MarshalJSON, Document.UnmarshalJSON, nodeToJson, jsonToNode", "xmp/unmarshal.go: decodeNode, lookupNode, addNamespace", "xmp/node.go: Namespaces, IsZero"]}
{"id": "C54", "title": "Exif values mean in XMP what they mean in Exif", "statement": "Byte arrays, dates, color filter tables, device settings, conversion tables and flash numbers are read from their Exif texts as the values the texts list, and everything else is refused. Values that are written are read again unchanged. Dates with their sub-seconds, artists and software say the same after being carried over between Exif tags and the properties of other schemas.", "quantifier": "all texts of Exif values, all values, all valid dates in all layouts, all flash numbers, all lists of creators", "why_tests_cant": "Texts of tables are lists of any length whose meaning depends on their first two numbers; flash numbers pack five fields into bits. Tests use the values of a few sample photos.", "anchors": ["models/exif/types.go: ByteArray, Date, convertDateToXMP, OECF, CFAPattern, DeviceSettings, Flash", "models/exif/model.go: SyncFromXMP, SyncToXMP"]}
{"id": "C55", "title": "ID3 tags mean in XMP what they mean in ID3", "statement": "Genres, lists of genres, dates, times and track numbers are read from their ID3 texts as the ID3 specification says and survive as text. Tags of older versions become the tags of the same meaning. Carrying the tags over to the properties of other schemas says the same there, erases nothing when a tag is absent, and carrying them back gives the same tags.", "quantifier": "all texts, all genre numbers, all lists of genres, all days, months and times, all track numbers, all tags and all documents", "why_tests_cant": "Texts of genres mix names, numbers and free text in lists of any length; dates of version 2.3 are ambiguous for the first twelve days of a month, so tests with such dates do not notice an exchange. The tests of the repository never carry tags over.", "anchors": ["models/id3/types.go: GenreV1, ParseGenreV1, Genre, Date23, Time23, TrackNum", "models/id3/enum.go: GenreMap", "models/id3/model.go: mapTagToV24, SyncFromXMP, SyncToXMP"]}
{"id": "C56", "title": "iXML chunks mean the same in XMP, old ones included", "statement": "Lists of take types, places and track functions behave as sets whatever is added, deleted, merged and subtracted, and changing a copy leaves the original alone; they survive as text. Truth values are read from their words only. The upgrade of an old chunk keeps what the chunk says and is stable. The start timecode is the number of samples since midnight at the timecode rate. The exchange with the dynamic media schema carries what the chunk says and erases nothing.", "quantifier": "all texts, all lists and sequences of operations, all chunks, all sample counts and rates, all documents", "why_tests_cant": "The sets are slices sharing memory, so an operation on one value changes another; sequences of operations have no bound. Timecodes depend on a 64 bit count and two rates. The repository has no tests of this model.", "anchors": ["models/ixml/enum.go: Contains, Add, Del, Merge, Sub, MarshalText, UnmarshalText, ParseTimecodeFlag, FunctionSet", "models/ixml/types.go: Bool, SyncPointList.ContainsFunc, Speed.XmpTimecode", "models/ixml/model.go: upgrade, v13_to_v14, v1x_to_v20, SyncToXMP", "models/xmp_dm/types.go: ParseTimecodeFormat"]}
{"id": "C57", "title": "Markers are put in the order of time and found by type", "statement": "Sorting a list of markers loses none and puts them in the order of the times at which they start, whatever their frame rates are. Filtering finds exactly the markers with one of the types asked for, in their order. A video frame rate is read from a number, a fraction, the name of a television norm or a number with a unit, and refused otherwise.", "quantifier": "all lists of markers, all counts and rates, all lists of types, all texts", "why_tests_cant": "The order of markers with different rates depends on all pairs of counts and rates, and the sorting library may choose any of several outcomes. The tests of the repository never sort or filter markers.", "anchors": ["models/xmp_dm/types.go: FrameCount.IsSmaller, MarkerList.Less, MarkerList.Sort, MarkerList.Filter, MarkerTypeList.Intersect, MarkerTypeList.Contains, VideoFrameRate.UnmarshalText"]}
{"id": "C58", "title": "QuickTime tags are kept in the part that lists them", "statement": "Setting a tag of QuickTime user data, QuickTime metadata, the QuickTime player or the professional applications stores the value in the part of the model that lists the tag, makes that part if needed, changes what no other tag reads, and the tag then reads back what was set. CanTag knows exactly the listed tags, unknown tags are refused, and ListTags lists what was set.", "quantifier": "all listed tags, all values, all contents of the model", "why_tests_cant": "There are 118 tags of user data alone, in four overlapping tables, and the pairs of tags for the frame property grow with the square. The tests of the repository set a handful of tags from sample files and never read one back.", "anchors": ["models/qt/model.go: QtInfo.CanTag, QtInfo.GetTag, QtInfo.SetTag, QtInfo.ListTags", "models/qt/qt_userdata.go", "models/qt/qt_metadata.go", "models/qt/qt_player.go", "models/qt/qt_proapps.go"]}
{"id": "C59", "title": "RIFF tags and their texts are exchanged with XMP without loss", "statement": "Every tag that RiffInfo names can be set, read and listed. The text of a list is cut exactly at the semicolons followed by a blank, and joining the items gives the text back; the text of a language alternative keeps each item readable. Reading from XMP takes over what other models say and keeps everything they do not say; writing to XMP fills only what is empty there, and doing it twice changes nothing more.", "quantifier": "all structs with tags, all texts, all contents of the document, all interleavings of lookups", "why_tests_cant": "Whether a struct's tags are usable at all depends on all pairs of its tags; texts and documents are unbounded. The tests of the repository contain no RIFF file.", "anchors": ["models/riff/model.go: RiffInfo.GetTag, RiffInfo.SetTag, RiffInfo.CanTag, RiffInfo.ListTags, RiffInfo.SyncFromXMP, RiffInfo.SyncToXMP", "models/riff/types.go: StringArray.UnmarshalText, AltString.UnmarshalText", "xmp/typeinfo.go: getTypeInfo, addFieldInfo"]}
{"id": "C60", "title": "Durations are read in all documented forms and survive as text and JSON", "statement": "Every duration written as text or JSON reads back exactly. A text of numbers with units, with sign, fractions and white space anywhere, is read as the sum of its parts; a whole number is read as seconds; nothing else is read. Truncating gives a multiple of the unit less than one unit away.", "quantifier": "all durations of 64 bits, all texts, all units", "why_tests_cant": "There are 2^64 durations and infinitely many texts; whether one of the three reading attempts takes a text meant for another, and where the multiplication overflows, depends on the whole text. The repository has no test of durations.", "anchors": ["xmp/units.go: Duration.String, ParseDuration, Duration.MarshalText, Duration.UnmarshalText, Duration.UnmarshalJSON, Duration.Truncate, Duration.RoundToDays"]}
{"id": "C61", "title": "Small values of QuickTime, Camera Raw, iTunes and Photo Mechanic survive as text", "statement": "Points, preferences, times of day and notes on gapless playback are read from exactly the documented forms; what is written is read as the same value; the location of a QuickTime file survives the exchange with its plain fields.", "quantifier": "all points, preferences and times; all texts; all locations", "why_tests_cant": "The reader chooses its format by the characters that occur anywhere in the text, ranges of numbers are 32 or 64 bits, and coordinates are split by a sign which is part of the numbers. The repository has no tests of these types.", "anchors": ["models/qt/types.go: Point", "models/crs/types.go: Point", "models/itunes/types.go: SMPB.UnmarshalText", "models/pm/model.go: Time, Preferences", "models/qt/qt_metadata.go: QtMetadata.SyncFromXMP, QtMetadata.SyncToXMP"]}
{"id": "C62", "title": "PDF and TIFF properties are exchanged with Dublin Core and XMP base without overwriting", "statement": "When a document is stored, each shared property (title, creators, description, rights, dates, tool) is the first non-empty value among the document and the PDF and TIFF models in their order, right places before wrong ones; storing again changes nothing, and the properties come back from an otherwise empty document.", "quantifier": "all documents, all lists of PDF and TIFF models in any order, all values", "why_tests_cant": "The result depends on the order of the models and on which of the many places are empty; tests pick a few combinations. The repository has no test of the exchange.", "anchors": ["models/pdf/model.go: PDFInfo.SyncFromXMP, PDFInfo.SyncToXMP", "models/tiff/model.go: TiffInfo.SyncFromXMP, TiffInfo.SyncToXMP", "xmp/document.go: Document.syncToXMP"]}
{"id": "C63", "title": "Extensions survive being written and read back", "statement": "Properties of namespaces without a model that an extension keeps (xmpMM:Pantry, iXML extensions) are written in their order and read back as the same extension; extensions with different names come back with their children and can be found by name; a bag of extensions comes back as the same bag.", "quantifier": "all extensions, all numbers of prefixes and properties, all property trees, all numbers of write/read cycles", "why_tests_cant": "The content of an extension is not known to the library; tests use one fixed tree and write it once, so that what grows with every cycle is not seen.", "anchors": ["xmp/xmp_ext.go: Extension.MarshalXMP, Extension.UnmarshalXMP, ExtensionArray.MarshalXMP, ExtensionArray.UnmarshalXMP, NamedExtensionArray.MarshalXMP, NamedExtensionArray.UnmarshalXMP", "xmp/unmarshal.go: decodeNode, decodeAttribute, lookupNode"]}
{"id": "C64", "title": "Bytes as text can be decoded again", "statement": "ToRawString gives integers, truth values and strings a text from which the same value is read; byte slices become valid base64 (RFC 4648), and decoding the text gives the bytes, except when the bytes happen to be a base64 text themselves.", "quantifier": "all byte sequences of any length, all integers of any size, all strings", "why_tests_cant": "The guess whether bytes are already encoded depends on all of them; a test with a typical picture never meets the texts for which it is wrong.", "anchors": ["xmp/marshal.go: ToRawString, isBase64, ToString"]}
{"id": "C65", "title": "Structs are written exactly when a field is set", "statement": "The structs Job, Thumbnail, Area, Dimensions, Colorant, ResourceRef, CFAPattern, DeviceSettings and Flash, which suppress their output when IsZero, write the same as their fields would; a struct with a field set is never lost, and what is written is read back.", "quantifier": "all values of these structs, all nodes written to, all decoders that know the names", "why_tests_cant": "A forgotten field shows only in values where this field alone is set; with up to seventeen fields no test tries all of these combinations.", "anchors": ["models/xmp_bj/types.go: Job", "models/xmp_base/types.go: Thumbnail, Area", "models/xmp_tpg/types.go: Dimensions, Colorant", "models/xmp_mm/types.go: ResourceRef", "models/exif/types.go: CFAPattern, DeviceSettings, Flash"]}
{"id": "C66", "title": "Coordinates, time stamps and decimal fractions keep their values", "statement": "An Exif coordinate in degrees, minutes and seconds becomes an XMP coordinate of the same position up to half of the last of seven decimals of a minute; decimal coordinates and fractions are read with a bounded error; GPS time stamps add exactly the time they stand for.", "quantifier": "all rational numbers as parts, all directions, all decimal texts", "why_tests_cant": "The error bound and the carry between degrees, minutes and seconds are claims about infinitely many positions; the failing ones lie in ranges of a billionth of a degree.", "anchors": ["models/exif/types.go: GPSCoord.UnmarshalText, convertGPStoXMP, convertGPSTimestamp", "models/exif/model.go: SyncFromXMP", "xmp/xmp_types.go: FloatToRational, Rational.UnmarshalText, Rational.Value, GPSCoord.IsZero"]}
{"id": "C67", "title": "Collecting values of other models in a list loses, repeats and invents nothing", "statement": "Merging the properties of several models into one list (as SyncModels does with identifiers) never fails, keeps the old entries and their order, appends the values that are missing in the order of the sources, adds none twice, touches no other property and no other model, and changes nothing when done again.", "quantifier": "all documents, all lists of sources and converters, all lists in the target", "why_tests_cant": "The result depends on the whole document, on the order of the sources and on the list before; losses show only for particular combinations.", "anchors": ["models/xmp_base/model.go: identifierDesc, SyncModel, prefixer", "xmp/sync.go: SyncMulti, Sync", "xmp/path.go: SetModelPath (UNIQUE)", "models/xmp_base/types.go: Identifier", "models/qt/model.go: QtInfo"]}
{"id": "C68", "title": "Documents survive as JSON text", "statement": "A document written by MarshalJSON is a text without control characters and HTML characters from which UnmarshalJSON reads the same document: a string survives if and only if it is UTF-8, different strings are written differently, no key hides another, and the order of entries does not matter.", "quantifier": "all byte strings, all JSON values of any shape up to 10000 levels, all documents of C53, all orders of entries", "why_tests_cant": "Escaping depends on every byte and its neighbours; quotes, surrogates, separators, invalid bytes and repeated keys in combination cannot be enumerated.", "anchors": ["xmp/json.go: MarshalJSON, UnmarshalJSON, jsonDocument, jsonOutDocument"]}
{"id": "C69", "title": "Documents survive as XML text", "statement": "The bytes that Marshal writes, with or without packet header, indentation and padding, are read by Unmarshal as the same tokens and the same document, whatever follows them: a value survives if and only if it is UTF-8 and made of characters of XML, different values are written differently, and no value can end the attribute or element it stands in.", "quantifier": "all byte strings, all trees of nodes with names of XML, all depths, all blank indentations, paddings and trailing bytes, all documents of C46", "why_tests_cant": "Escaping depends on every byte and its neighbours, and well-formedness on the whole nesting of names, attributes, texts and indentation.", "anchors": ["xmp/marshal.go: Encode", "xmp/unmarshal.go: Decode", "xmp/node.go: MarshalXML, UnmarshalXML"]}
{"id": "C70", "title": "Documents embedded in files are found and read", "statement": "A document written as a packet with any size limit and padding, and put between other bytes without a start marker, is exactly what Scan returns, however the bytes arrive from the reader; no value of a document can end its packet early; scanning does not fail.", "quantifier": "all documents of C46 with names and texts of XML, all surrounding bytes without start marker, all sequences of reads that do not cut the marker, all packets up to 61440 bytes", "why_tests_cant": "The outcome depends on where reads cut the stream, on the growth of the scanner's buffer and on every byte of the document and its surroundings.", "anchors": ["xmp/reader.go: Scan, ScanPackets, splitPacket", "xmp/marshal.go: Encode", "xmp/unmarshal.go: Unmarshal"]}
{"id": "C71", "title": "The models shipped with the library fit together", "statement": "Whatever model packages a program imports and in whatever order they are initialised, every namespace is found under its own prefix and URI and in its own groups; every factory makes a model of its own namespace; the typed FindModel and MakeModel of the packages return the model stored under their prefix and never fail an assertion; every prefix used in the tags of the imported packages is registered.", "quantifier": "all sets of packages closed under imports, all orders and repetitions of the registrations together with registrations of other prefixes by the program, all histories of adding, making and removing models", "why_tests_cant": "Each package is tested in a binary that imports a fixed set of others; the properties speak of all sets of packages, all orders of initialisation and all histories of a document.", "anchors": ["models/*/model.go: NewModel, MakeModel, FindModel, Namespaces, Can, init", "models/import.go", "xmp/sdk.go: init", "xmp/document.go: FindModel, MakeModel, AddModel", "xmp/marshal.go: marshalValue"]}
{"id": "C72", "title": "Documents of the shipped models survive being written and read", "statement": "In every program that uses packages of the library, a document of their models is written and read back as the same models with the same values: every field is read in the form in which it is written and into the model from which it came.", "quantifier": "all sets of packages closed under imports, all registration orders, all documents of shipped models and values of their fields, all text forms of the field types, all indentations and orders of map iteration", "why_tests_cant": "The samples in the repository use a few fields of a few models; the property speaks of all 24 models with over a thousand fields, all values and all combinations of packages.", "anchors": ["models/*/model.go: struct types with xmp tags", "models/*/types.go: MarshalXMP, UnmarshalXMP, MarshalText, UnmarshalText, IsZero", "xmp/marshal.go: marshal, marshalValue", "xmp/unmarshal.go: decodeNode, decodeAttribute, unmarshal", "xmp/document.go: MarshalXMP via xmp.Marshal, xmp.Unmarshal"]}
{"id": "C73", "title": "The shipped models can be filled and read by the tags of file formats", "statement": "Every tag of a shipped model reaches exactly its field: setting it stores the value that the text means or is refused, reading it gives that text back, other tags are not changed, unknown tags are refused, CanTag knows the tags of the model, and listing gives the tags that can be read.", "quantifier": "all 27 models with native tags, all their tags in all spellings, all values of all fields, all texts, all text forms of the field types", "why_tests_cant": "There are about 900 tags in 27 structs, each with its own type and methods; the repository tests none of them by tag.", "anchors": ["models/*/model.go: CanTag, GetTag, SetTag, GetLocaleTag, SetLocaleTag, ListTags", "models/*/model.go: struct tags of the fields", "xmp/native.go: GetNativeField, SetNativeField, ListNativeFields, findField, getTypeInfo"]}
{"id": "C74", "title": "Documents of the shipped models survive as files", "statement": "A document of shipped models whose texts are texts of XML is written to bytes from which Unmarshal, and Scan on any file that contains them, read the same models with the same values.", "quantifier": "all programs over the shipped packages, all documents of their models with values that can be read back, all indentations, paddings and bytes around the packet, all ways in which the bytes of the file arrive", "why_tests_cant": "The claim joins encoder, XML text, packet, scanner, XML decoder and document decoder for all values; tests compare a few samples.", "anchors": ["xmp/xmp.go: Marshal, Unmarshal, Scan", "xmp/marshal.go: Encode", "xmp/unmarshal.go: Decode", "xmp/reader.go", "xmp/node.go: MarshalXML, UnmarshalXML", "models/*/model.go"]}
{"id": "C75", "title": "Documents of the shipped models survive as JSON text", "statement": "A document of shipped models whose texts are UTF-8 and whose values survive JSON is written with json.Marshal to a text from which json.Unmarshal reads the same models with the same values, in whatever order Go visits its maps.", "quantifier": "all programs over the shipped packages, all documents of their models with values that can be read back from JSON, all orders of the entries of maps", "why_tests_cant": "The claim joins encoder, JSON form, JSON text, its parser, the JSON decoder and the document decoder for all values; tests compare a few samples and one order of map entries.", "anchors": ["xmp/json.go: MarshalJSON, UnmarshalJSON", "xmp/marshal.go", "xmp/unmarshal.go", "models/*/model.go"]}
{"id": "C76", "title": "The forms that XMP allows for a value are read alike", "statement": "A struct is read as the same value whether its plain fields are attributes or elements, whether it is wrapped in rdf:Description at any depth or marked with rdf:parseType, in whatever order its fields come; an array is read alike from every kind of container. The properties of a document may be spread over any number of rdf:Description elements and come in any order. A URI is read from its text and from rdf:resource; a value with qualifiers is read as its value; declarations of namespaces do not matter.", "quantifier": "all types, all values, all nestings of types and of rdf:Description, all orders and groupings of properties, all documents and environments", "why_tests_cant": "Tests read one form per property; the claim compares all forms, at any depth and in any combination.", "anchors": ["xmp/unmarshal.go: Decode, decodeNode, decodeAttribute, unmarshal, unmarshalAttr, skipField", "xmp/array.go: UnmarshalArray", "xmp/xmp_types.go: Uri.UnmarshalXMP"]}
{"id": "C77", "title": "iXML chunks are read completely and survive", "statement": "An iXML chunk that was read from XML and is written with xml.Marshal is read again as the same chunk, in all fields: numbers, truth values, lists of texts, rates, sync points, tracks, user data, places and unknown elements. Lists take every item among their children, in order, and skip everything else whatever it contains; unknown elements are all kept; the order of elements, comments and blanks do not matter.", "quantifier": "all chunks (XML trees of any depth), all values of the fields, lists of any length, all contents of unknown elements", "why_tests_cant": "The project has no test for iXML; the claim covers all nestings in lists and all layouts of a chunk.", "anchors": ["models/ixml/model.go: ParseXML, upgrade", "models/ixml/types.go: SyncPointList.UnmarshalXML, TrackList.UnmarshalXML, MarshalXML", "models/ixml/enum.go: MarshalText, UnmarshalText", "xmp/xmp_ext.go: Extension.MarshalXML, UnmarshalXML"]}
{"id": "C78", "title": "Values set by path are in the saved file", "statement": "In a program that uses models of the library, take any document that can be saved, the empty one for example, and set values by path, any number of them in any order: in models that exist or are created by the call, in fields, in array elements that exist or are the next, in structs and in structs that are array elements. Every call succeeds, reading the path gives the value, the document can then be written and read, and every path that gives a text in the document in memory gives the same text in the document that is read from the file. The same holds of sessions in which values are set and the document is saved and loaded, in any order and any number of times; and a value that is set stays, through all of this, until a path that does not part from its own is set.", "quantifier": "all sets of packages with their imports, all documents of their models, all sequences of calls of any length, all paths and values, all orders of the namespace maps, all indentations", "why_tests_cant": "The tests set single literal paths and do not save the result; the claim is about all sequences of edits and about every path of the document, including those that were not edited, and about hidden elements that growing arrays leaves behind.", "anchors": ["xmp/path.go: SetPath, GetPath, SetModelPath", "xmp/document.go: AddModel", "xmp/marshal.go", "xmp/unmarshal.go"]}
{"id": "C79", "title": "The command xmpinfo shows what is in a file", "statement": "The command prints the packet that a file holds unchanged, also if it cannot be decoded; with -all it prints all packets in their order. For a file in which a document of models of the library was saved, as a sidecar or embedded between other bytes, -path prints exactly the paths and values of the document. The output of -xmp can be saved and shown again, any number of times: the command succeeds and lists the same paths and values. With -quiet nothing but errors is printed.", "quantifier": "all files, all splits into reads, all combinations of flags, all documents of the models of the library, all orders of the namespace maps, any number of repetitions", "why_tests_cant": "The command has no tests; the claim is about all documents and any number of repetitions, and depends on the scanner, the decoder, the encoder and the listing together.", "anchors": ["cmd/xmpinfo.go: main, marshal, unmarshal, out", "xmp/scanner.go", "xmp/document.go: ListPaths"]}
{"id": "C80", "title": "All layouts and escapes that JSON allows are read alike", "statement": "A JSON text of a document may be laid out and escaped by any other program: with any white space between its parts, characters as they are, with short escapes, with their numbers or UTF-16 pairs, with digits in lower or upper case, with the parts of the document in any order, with names in any case and between entries of other names. Reading it gives the same document as the text that the library writes. Indenting a text with json.Indent or json.MarshalIndent, any number of times and with any prefix and unit of white space, gives another form of the same value; documents of the models of the library keep their models and values through it.", "quantifier": "all values, all of their forms, all prefixes and units of indentation, any number of repetitions, all documents of the models of the library", "why_tests_cant": "A value has infinitely many forms, and indentation has to track strings and escapes in all of them.", "anchors": ["xmp/json.go: MarshalJSON, UnmarshalJSON", "cmd/xmpinfo.go:162"]}
{"id": "C81", "title": "Documents survive any mix of XMP packets and JSON texts", "statement": "A document of models of the library may be passed on as an XMP packet and as a JSON text, in turn, as often as one likes: packets with any order of declarations, indentation, padding and bytes behind them; JSON in any layout, escaping, order and case of its parts. No step fails. What is read at the end has exactly the top-level nodes with content of the first document, with the same models and values, in some order; the same description of the resource; and every path that gave a value gives the same value.", "quantifier": "all programs that use packages of the library, all their documents (values that can be read back, survive JSON and are texts of XML), all sequences of saves and loads in both formats, all forms and orders, all paths", "why_tests_cant": "The number of steps and the forms are unbounded; a test sees one path through the two encoders and decoders, and their Go maps are visited in random order.", "anchors": ["xmp/json.go: MarshalJSON, UnmarshalJSON", "xmp/marshal.go: Encode", "xmp/unmarshal.go: Decode", "xmp/path.go: GetPath"]}
{"id": "C82", "title": "Languages and dates of Dublin Core may be given as an array or as one text", "statement": "LocaleArray and DateList read an element that has either one text or an array of any kind. In both forms all texts are read, in order, and appended to what the list holds; dates as ParseDate reads them, where an empty element of an array is the zero date. Every other element, and every text that is no date, gives an error. A list that came from one text is saved as an array (rdf:Bag, rdf:Seq) and found again from the tree and from its XML text; Default is the first language.", "quantifier": "all elements, all texts, all dates, all contents of the list before, all registries", "why_tests_cant": "Trees are unbounded and the condition is an exact one: which elements are read and which are refused.", "anchors": ["models/dc/types.go: LocaleArray.UnmarshalXMP, LocaleArray.MarshalXMP, LocaleArray.Default", "xmp/xmp_types.go: DateList.UnmarshalXMP, DateList.MarshalXMP", "xmp/array.go: MarshalArray, UnmarshalArray"]}
{"id": "C83", "title": "Values set by path stay through all later edits, savings and loadings, in both formats", "statement": "A document is edited with SetPath, saved as an XMP packet or as JSON in any form, loaded again, edited again and so on, in any order and as often as one likes. Every edit succeeds and GetPath gives the value that was set. While the texts can be written in both formats no saving and no loading fails, and loading gives exactly the top-level nodes with content, the same description of the resource and the same value for every path. A value that was set stays until the same property is set again.", "quantifier": "all programs that use packages of the library, all sequences of edits, savings and loadings, all forms of both formats, all orders in which maps are read", "why_tests_cant": "The sequences of operations are unbounded and each step leaves hidden state (spare elements of arrays, node attributes, declared namespaces) that the next one must tolerate.", "anchors": ["xmp/path.go: SetPath, GetPath", "xmp/marshal.go: Encoder.Encode", "xmp/unmarshal.go: Decoder.Decode", "xmp/json.go: Document.MarshalJSON, Document.UnmarshalJSON"]}
{"id": "C84", "title": "Names and paths belong to the namespace whose prefix they carry", "statement": "Path.MatchNamespace holds exactly for paths that begin with the prefix of the namespace and a colon, and for no path if the namespace is nil. MatchAttrName and MatchXMLName hold for names with that prefix, or, for names with a URI, for the URI of the namespace. No name or path matches two namespaces with different prefixes. What Expand, XMLName and NewPath make matches their own namespace, and Split gives the local name again. A name in a namespace that the decoder knows is translated to a name of that namespace with the same local name, and a name in another namespace is never taken for one.", "quantifier": "all namespaces, all names and paths, all local names including those with colons, all states of the decoder", "why_tests_cant": "The conditions are exact ones over all texts; names with several colons, without colon or equal to a prefix are easily left out.", "anchors": ["xmp/namespace.go: MatchAttrName, MatchXMLName, Expand, Split, XMLName, RootName", "xmp/path.go: MatchNamespace, NewPath", "xmp/unmarshal.go: translate, findNs"]}
{"id": "C85", "title": "Timecode properties keep their time and format", "statement": "A Timecode that is written as a property with MarshalXMP and read by UnmarshalXMP after a round through XML, or written and read as JSON, has the same format, hours, minutes, seconds, frames and kind of separator, and its value is their text; what was read is written and read unchanged. The attribute form is read like the element form, in either order. A timecode of which only the value or only the numbers are set is saved as well.", "quantifier": "all timecodes with numbers that are not negative, all formats without surrounding white space, all decoders that know the names, all contexts", "why_tests_cant": "Value and numbers are two representations of the same time that the code does not keep in step; which of them counts is a matter of every combination.", "anchors": ["models/xmp_dm/types.go: Timecode.IsZero, MarshalXMP, UnmarshalXMP, MarshalJSON, UnmarshalJSON, Unpack, String"]}
{"id": "C86", "title": "Chroma subsampling keeps its factors and its name", "statement": "tiff.YCbCrSubSampling has the name of a scheme exactly if it begins with the two factors of that scheme, and no name stands for two pairs of factors. Every list that is not empty is saved as a property and read back exactly after a round through XML.", "quantifier": "all lists of 64-bit integers, all names, all parent nodes, all decoders that know the rdf names", "why_tests_cant": "Lists of any length and of any numbers can be set; a test looks at the common pairs only, and lists that count as zero are skipped silently.", "anchors": ["models/tiff/types.go: YCbCrSubSampling.String, IsZero, MarshalXMP, UnmarshalXMP", "xmp/marshal.go: isEmptyValue"]}
{"id": "C87", "title": "The logger shows the messages of the chosen level and above, unaltered", "statement": "For every sequence of SetLogLevel and logging calls, a message is logged exactly if its level is not below the level set last (warning if none was set), and nothing logged before changes. Errorf, Warnf, Infof and Debugf log the word of the level, a space, the text with its arguments in their places, and a line feed. Error, Warn, Info and Debug log the word of the level and their arguments.", "quantifier": "all sequences of calls, all levels, all formats made of text and places for texts, all arguments", "why_tests_cant": "The level is a global variable; what is shown depends on the whole history of calls.", "anchors": ["xmp/log.go: SetLogLevel, LogLevelType.Prefix, defaultLogger, output, outputf, LogType"]}
