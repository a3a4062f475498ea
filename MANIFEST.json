{
 "claims": [
  {
   "property": "C01",
   "status": "proved",
   "theorems": [
    "Xmp.Props.before_iff_lex",
    "Xmp.Props.after_iff_lex",
    "Xmp.Props.equal_iff_eq",
    "Xmp.Props.version_trichotomy",
    "Xmp.Props.version_total_order"
   ],
   "note": ""
  },
  {
   "property": "C02",
   "status": "proved",
   "theorems": [
    "Xmp.Props.version_parse_toStr",
    "Xmp.Props.version_parse_iff"
   ],
   "note": ""
  },
  {
   "property": "C03",
   "status": "partial",
   "theorems": [
    "Xmp.Props.between_lower_partial",
    "Xmp.Props.between_upto_excludes_bound",
    "Xmp.Props.between_upto_strict",
    "Xmp.Props.between_unrestricted_rejects",
    "Xmp.Props.between_full_statement_false"
   ],
   "note": "The full inclusive-range statement is false for the code; the negation is proved with a witness, and the part that holds is proved."
  },
  {
   "property": "C04",
   "status": "proved",
   "theorems": [
    "Xmp.Props.expand_split",
    "Xmp.Props.split_at_first_colon",
    "Xmp.Props.expand_injective"
   ],
   "note": ""
  },
  {
   "property": "C05",
   "status": "proved",
   "theorems": [
    "Xmp.Props.len_eq_length_fields",
    "Xmp.Props.path_fields_new",
    "Xmp.Props.path_pop_push",
    "Xmp.Props.path_push_append",
    "Xmp.Props.path_pop_empty",
    "Xmp.Props.popFront_walks",
    "Xmp.Props.peek_eq_popFront",
    "Xmp.Props.path_unmarshal"
   ],
   "note": ""
  },
  {
   "property": "C06",
   "status": "proved",
   "theorems": [
    "Xmp.Props.segment_index_roundtrip",
    "Xmp.Props.segment_lang_roundtrip",
    "Xmp.Props.segment_plain",
    "Xmp.Props.segment_empty_index",
    "Xmp.Props.path_appendIndex",
    "Xmp.Props.path_appendIndexString",
    "Xmp.Props.nested_index_unreadable",
    "Xmp.Props.index_minus_one_reads_as_none"
   ],
   "note": "The last two theorems record where indexes are not readable: nested arrays and [-1]."
  },
  {
   "property": "C07",
   "status": "proved",
   "theorems": [
    "Xmp.Props.listing_unique",
    "Xmp.Props.listing_nodup",
    "Xmp.Props.unique_idem",
    "Xmp.Props.unique_needs_sort"
   ],
   "note": ""
  },
  {
   "property": "C08",
   "status": "partial",
   "theorems": [
    "Xmp.Props.diff_exact_partial",
    "Xmp.Props.diff_same",
    "Xmp.Props.diff_from_empty_unflagged",
    "Xmp.Props.diff_full_statement_false"
   ],
   "note": "Exact for two non-empty listings; false against an empty listing (proved)."
  },
  {
   "property": "C09",
   "status": "proved",
   "theorems": [
    "Xmp.Props.parse_flags_spec",
    "Xmp.Props.parse_flags_set",
    "Xmp.Props.unmarshal_flags",
    "Xmp.Props.parse_flags_ne_zero"
   ],
   "note": ""
  },
  {
   "property": "C10",
   "status": "proved",
   "theorems": [
    "Xmp.Props.registry_prefix_latest",
    "Xmp.Props.registry_uri_latest",
    "Xmp.Props.registry_short",
    "Xmp.Props.registry_group",
    "Xmp.Props.registry_prefixes",
    "Xmp.Props.registry_namespaces",
    "Xmp.Props.removeDups_spec",
    "Xmp.Props.group_contains_iff"
   ],
   "note": ""
  },
  {
   "property": "C11",
   "status": "proved",
   "theorems": [
    "Xmp.Props.filter_roundtrip_strict",
    "Xmp.Props.filter_lenient_of_strict",
    "Xmp.Props.filter_roundtrip",
    "Xmp.Props.filter_unknown",
    "Xmp.Props.filter_group",
    "Xmp.Props.filter_xmp_not_roundtrip"
   ],
   "note": "Last theorem: the prefix xmp, also a group name, does not round trip (excluded by the property)."
  },
  {
   "property": "C12",
   "status": "partial",
   "theorems": [
    "Xmp.Props.removeNamespace_spec",
    "Xmp.Props.removeNamespaces_exact",
    "Xmp.Props.filterNamespaces_exact",
    "Xmp.Props.filter_apply_exact",
    "Xmp.Props.removeNamespace_untracks",
    "Xmp.Props.makeModel_duplicates_node"
   ],
   "note": "Removal by list needs one node per name; makeModel_duplicates_node shows a reachable document where it fails. Filtering is proved without that hypothesis."
  },
  {
   "property": "C13",
   "status": "partial",
   "theorems": [
    "Xmp.Props.findModel_history",
    "Xmp.Props.makeModel_idem",
    "Xmp.Props.addModel_tracks",
    "Xmp.Props.findNs_spec",
    "Xmp.Props.makeModel_duplicates_node"
   ],
   "note": "Proved for histories of model operations from an empty document; false once bare nodes exist (makeModel_duplicates_node)."
  },
  {
   "property": "C41",
   "status": "partial",
   "theorems": [
    "Xmp.Props.sync_clean_calls_nothing",
    "Xmp.Props.sync_dirty_calls_all",
    "Xmp.Props.changed_is_dirty",
    "Xmp.Props.raw_node_not_dirty"
   ],
   "note": "SetPath's creation of a bare node is not marked dirty when the value is then refused (raw_node_not_dirty); edits of model structs by the caller are not tracked by design."
  },
  {
   "property": "C14",
   "status": "partial",
   "theorems": [
    "Xmp.Props.alt_step",
    "Xmp.Props.alt_one_default",
    "Xmp.Props.alt_no_empty_text",
    "Xmp.Props.ensureDefault_spec",
    "Xmp.Props.newAltString_spec",
    "Xmp.Props.newAltString_panics",
    "Xmp.Props.removeLang_spec",
    "Xmp.Props.removeLang_panics"
   ],
   "note": "Proved for all sequences of additions and updates. Construction from two plain strings and removal of the default among three or more panic (newAltString_panics, removeLang_panics); the exact panic conditions are proved."
  },
  {
   "property": "C15",
   "status": "partial",
   "theorems": [
    "Xmp.Props.alt_get_set",
    "Xmp.Props.alt_get_addDefault",
    "Xmp.Props.alt_get_add",
    "Xmp.Props.alt_get_removeLang",
    "Xmp.Props.removeLang_keeps_duplicates",
    "Xmp.Props.set_empty_lang_ineffective"
   ],
   "note": "Removal needs distinct languages (counterexample removeLang_keeps_duplicates); setting the empty language has no effect on lookups (set_empty_lang_ineffective)."
  },
  {
   "property": "C16",
   "status": "partial",
   "theorems": [
    "Xmp.Props.alt_roundtrip_exact",
    "Xmp.Props.alt_roundtrip",
    "Xmp.Props.alt_roundtrip_duplicate_lang",
    "Xmp.Props.alt_marshal_needs_lang"
   ],
   "note": "Proved for alternatives without repeated languages, for the tree and for its XML text; false with a repeated language (alt_roundtrip_duplicate_lang)."
  },
  {
   "property": "C17",
   "status": "proved",
   "theorems": [
    "Xmp.Props.add_all",
    "Xmp.Props.list_contains",
    "Xmp.Props.addUnique_nodup",
    "Xmp.Props.addUnique_count",
    "Xmp.Props.newStringList_eq"
   ],
   "note": ""
  },
  {
   "property": "C18",
   "status": "partial",
   "theorems": [
    "Xmp.Props.remove_full_statement_false",
    "Xmp.Props.remove_exact",
    "Xmp.Props.remove_never_removes",
    "Xmp.Props.remove_absent_partial"
   ],
   "note": "The property is false: Remove never removes (remove_exact gives its exact effect). Only removal of an absent value is as claimed."
  },
  {
   "property": "C19",
   "status": "proved",
   "theorems": [
    "Xmp.Props.array_roundtrip",
    "Xmp.Props.strings_roundtrip",
    "Xmp.Props.strings_roundtrip_trims",
    "Xmp.Props.ints_roundtrip",
    "Xmp.Props.strings_error_iff",
    "Xmp.Props.array_kind_not_checked",
    "Xmp.Props.fixed_array"
   ],
   "note": "The kind of array is not checked by the code (array_kind_not_checked), as documented in its comments; errors are characterised exactly."
  },
  {
   "property": "C37",
   "status": "proved",
   "theorems": [
    "Xmp.Props.list_text_roundtrip",
    "Xmp.Props.list_text_line_endings",
    "Xmp.Props.list_text_lone_cr",
    "Xmp.Props.list_text_empty"
   ],
   "note": ""
  },
  {
   "property": "C20",
   "status": "proved",
   "theorems": [
    "Xmp.Props.nodes_history",
    "Xmp.Props.attrs_history",
    "Xmp.Props.find_after_history",
    "Xmp.Props.getAttr_after_history",
    "Xmp.Props.find_ignores_prefix"
   ],
   "note": "Lookup compares local names only (find_ignores_prefix), as the property states."
  },
  {
   "property": "C21",
   "status": "partial",
   "theorems": [
    "Xmp.Props.newNode_fresh",
    "Xmp.Props.pool_sound",
    "Xmp.Props.pool_counters",
    "Xmp.Props.close_tree",
    "Xmp.Props.double_close_shares",
    "Xmp.Props.copyNode_deep"
   ],
   "note": "Proved for all histories in which every node is closed at most once; closing twice hands the same node out twice (double_close_shares)."
  },
  {
   "property": "C22",
   "status": "partial",
   "theorems": [
    "Xmp.Props.get_setPath_partial",
    "Xmp.Props.setPath_frame",
    "Xmp.Props.setPath_root",
    "Xmp.Props.setPath_attribute_lost",
    "Xmp.Props.setPath_language_appended",
    "Xmp.Props.setPath_language_missing",
    "Xmp.Props.setPath_array_unread",
    "Xmp.Props.setPath_index_below_alternative",
    "Xmp.Props.setPath_empty_segment",
    "Xmp.Props.get_setPath_not_always"
   ],
   "note": "Proved for paths of field names and array indices that fit the tree; the other theorems are witnesses of cases where a value set is not read back."
  },
  {
   "property": "C23",
   "status": "partial",
   "theorems": [
    "Xmp.Props.limit_respected",
    "Xmp.Props.limit_split_independent",
    "Xmp.Props.no_limit",
    "Xmp.Props.limit_respected_failing",
    "Xmp.Props.empty_write_overflows"
   ],
   "note": "Proved for all splits into non-empty writes; an empty write at the limit reports an overflow although nothing is dropped (empty_write_overflows)."
  },
  {
   "property": "C24",
   "status": "proved",
   "theorems": [
    "Xmp.Props.padded_packet",
    "Xmp.Props.plain_packet"
   ],
   "note": ""
  },
  {
   "property": "C25",
   "status": "partial",
   "theorems": [
    "Xmp.Props.scan_sound",
    "Xmp.Props.scan_complete_partial",
    "Xmp.Props.scan_independent_partial",
    "Xmp.Props.scan_one_read",
    "Xmp.Props.packetsOf_encoded",
    "Xmp.Props.scan_encoded_partial",
    "Xmp.Props.one_byte_reads_find_nothing",
    "Xmp.Props.scan_depends_on_reads",
    "Xmp.Props.scan_loses_second_packet",
    "Xmp.Props.short_token_rejected",
    "Xmp.Props.short_token_panics",
    "Xmp.Props.large_packet_too_long",
    "Xmp.Props.large_reads_fail"
   ],
   "note": "Soundness, order and disjointness hold for every delivery. Independence of the reads is false (one_byte_reads_find_nothing, scan_depends_on_reads) and proved for deliveries that do not cut a start marker."
  },
  {
   "property": "C31",
   "status": "partial",
   "theorems": [
    "Xmp.Props.slice_history_partial",
    "Xmp.Props.delete_element",
    "Xmp.Props.set_element",
    "Xmp.Props.deleted_element_returns"
   ],
   "note": "Single steps are proved from every state; histories are proved when no step deletes the last of several elements. Otherwise a deleted element can reappear in a gap (deleted_element_returns)."
  },
  {
   "property": "C32",
   "status": "partial",
   "theorems": [
    "Xmp.Props.model_read_after_write",
    "Xmp.Props.model_write_succeeds",
    "Xmp.Props.model_frame",
    "Xmp.Props.model_read_after_write_alt",
    "Xmp.Props.model_string_roundtrip",
    "Xmp.Props.model_int_roundtrip",
    "Xmp.Props.zero_not_read_back",
    "Xmp.Props.space_not_read_back",
    "Xmp.Props.iszero_or_not_read_back",
    "Xmp.Props.array_append_not_read_back",
    "Xmp.Props.alt_default_not_read_back",
    "Xmp.Props.extra_segments_ignored",
    "Xmp.Props.failed_write_allocates",
    "Xmp.Props.number_not_deletable"
   ],
   "note": "Read-after-write and frame are proved for every type of the universe and every path that leads to a value; the remaining theorems are witnesses of the cases where the property fails (zero values, surrounding space, IsZero with ||, appends under default flags, extra segments)."
  },
  {
   "property": "C26",
   "status": "partial",
   "theorems": [
    "Xmp.Props.setPath_denied_partial",
    "Xmp.Props.setPath_same",
    "Xmp.Props.setPath_absent_denied",
    "Xmp.Props.setPath_change_allowed",
    "Xmp.Props.setPath_nofail",
    "Xmp.Props.setPath_writes",
    "Xmp.Props.setPath_deletes_namespace",
    "Xmp.Props.setPath_other_namespace",
    "Xmp.Props.setPath_frame_model",
    "Xmp.Props.empty_value_creates_model",
    "Xmp.Props.refused_change_hides_value",
    "Xmp.Props.root_value_deletes",
    "Xmp.Props.nofail_read_error"
   ],
   "note": "Proved for namespaces the document already serves (a model, or a bare node of a namespace without a model): a transition the flags do not allow leaves the document unchanged and reports an error. For other namespaces the statement is false: a refused empty value adds a model, and a refused change of a bare node hides its value."
  },
  {
   "property": "C27",
   "status": "partial",
   "theorems": [
    "Xmp.Props.sync_denied",
    "Xmp.Props.sync_allowed",
    "Xmp.Props.sync_writes_converted",
    "Xmp.Props.sync_keeps_source",
    "Xmp.Props.sync_keeps_others",
    "Xmp.Props.sync_keeps_source_same_model",
    "Xmp.Props.sync_given_target",
    "Xmp.Props.syncMulti_given_target",
    "Xmp.Props.sync_writes_equal_value",
    "Xmp.Props.sync_clears_without_delete",
    "Xmp.Props.sync_panics_without_factory"
   ],
   "note": "Decision, conversion and preservation of the source are proved for source and target models in the document. Equality and flags are tested before the conversion, so the converted value can equal the target or be empty (witnesses)."
  },
  {
   "property": "C42",
   "status": "partial",
   "theorems": [
    "Xmp.Props.merge_keeps_partial",
    "Xmp.Props.merge_adds_partial",
    "Xmp.Props.merge_creates_partial",
    "Xmp.Props.merge_adds_later_partial",
    "Xmp.Props.model_keeps_simple",
    "Xmp.Props.model_adds_missing",
    "Xmp.Props.merge_overwrites_element",
    "Xmp.Props.merge_stops",
    "Xmp.Props.merge_hides_bare_values",
    "Xmp.Props.pantry_incomplete"
   ],
   "note": "Keeping is proved for every value that is a field (also inside array elements that are structs) without the omit and empty options, for any listing and also for failed merges; adding is proved for strings of models the destination has, and for strings whose model the destination lacks when their turn comes, which creates the model (merge_creates_partial), and for all later strings of that model (merge_adds_later_partial). Elements of arrays of simple values are overwritten, a path that can not be read stops the merge, and bare nodes get hidden (witnesses)."
  },
  {
   "property": "C29",
   "status": "partial",
   "theorems": [
    "Xmp.Props.parseInt_iff",
    "Xmp.Props.bool_roundtrip",
    "Xmp.Props.bool_accepts",
    "Xmp.Props.nullInt_roundtrip",
    "Xmp.Props.nullInt_accepts",
    "Xmp.Props.splitInt_parts_partial",
    "Xmp.Props.splitInt_roundtrip_partial",
    "Xmp.Props.splitInt_upper_half",
    "Xmp.Props.splitInt_bad_parts",
    "Xmp.Props.nullString_roundtrip",
    "Xmp.Props.nullString_trims",
    "Xmp.Props.nullString_keeps",
    "Xmp.Props.nullString_lost",
    "Xmp.Props.nullBool_roundtrip",
    "Xmp.Props.nullBool_true",
    "Xmp.Props.nullBool_accepts_anything",
    "Xmp.Props.guid_roundtrip",
    "Xmp.Props.guid_issuer",
    "Xmp.Props.float_roundtrip",
    "Xmp.Props.float_json_swaps_inf",
    "Xmp.Props.float_drops_capital_exponent"
   ],
   "note": "Round trips are proved for all values of Bool, NullInt, NullString (outside the reserved words), NullBool, GUID and, relative to a law about the standard library, NullFloat. SplitInt round trips below 2^31 only (splitInt_upper_half)."
  },
  {
   "property": "C30",
   "status": "partial",
   "theorems": [
    "Xmp.Props.gcd_isGcd",
    "Xmp.Props.reduce_lowest",
    "Xmp.Props.reduce_moves_sign",
    "Xmp.Props.rational_parse_rest",
    "Xmp.Props.rational_roundtrip",
    "Xmp.Props.rational_whole",
    "Xmp.Props.rational_space",
    "Xmp.Props.rational_accepts_junk",
    "Xmp.Props.decimal_unit_fraction",
    "Xmp.Props.decimal_misread"
   ],
   "note": "Text round trip and lowest terms are proved for all values; trailing text is accepted and decimals below one are misread (witnesses)."
  },
  {
   "property": "C38",
   "status": "partial",
   "theorems": [
    "Xmp.Props.frameRate_roundtrip",
    "Xmp.Props.frameRate_accepts",
    "Xmp.Props.frameRate_negative_base",
    "Xmp.Props.frameCount_roundtrip",
    "Xmp.Props.frameCount_loses_rate",
    "Xmp.Props.part_roundtrip",
    "Xmp.Props.parts_roundtrip",
    "Xmp.Props.part_range",
    "Xmp.Props.part_second_time",
    "Xmp.Props.parts_not_read_back"
   ],
   "note": "Round trips are proved for all well formed values: bases of at least one, rate 1/1 for the counts 0 and -1, part paths that end in a slash, non-empty lists. Outside of these the values change (witnesses)."
  },
  {
   "property": "C39",
   "status": "proved",
   "theorems": [
    "Xmp.Props.timecode_roundtrip",
    "Xmp.Props.timecode_decode_encode",
    "Xmp.Props.timecode_two_places",
    "Xmp.Props.timecode_negative"
   ],
   "note": ""
  },
  {
   "property": "C40",
   "status": "partial",
   "theorems": [
    "Xmp.Props.contentRating_shifted",
    "Xmp.Props.contentRating_never_roundtrips"
   ],
   "note": "The property is false: proved that reading back shifts all fields, so only the empty rating is read back."
  },
  {
   "property": "C43",
   "status": "partial",
   "theorems": [
    "Xmp.Props.mediaTime_whole",
    "Xmp.Props.mediaTime_fraction",
    "Xmp.Props.mediaTime_silent"
   ],
   "note": "Proved for all clock texts with a fraction of up to nine digits; longer fractions are ignored (witness). Overflow of the duration is not modelled."
  },
  {
   "property": "C28",
   "status": "proved",
   "theorems": [
    "Xmp.Props.lookup_result",
    "Xmp.Props.metadata_fields",
    "Xmp.Props.lookup_no_race",
    "Xmp.Props.lookup_no_deadlock",
    "Xmp.Props.lookup_bounded",
    "Xmp.Props.lookup_completes",
    "Xmp.Props.lookup_self_embedded"
   ],
   "note": "Proved over all interleavings of any number of lookups, one step per lock operation and map access. Termination needs types without a cycle of embedded structs; a struct that embeds a pointer to itself never finishes (proved)."
  },
  {
   "property": "C35",
   "status": "partial",
   "theorems": [
    "Xmp.Props.tags_roundtrip",
    "Xmp.Props.tags_last_value",
    "Xmp.Props.tags_dash_in_key",
    "Xmp.Props.tags_repeated"
   ],
   "note": "Round trip proved for lists without repeated key and language and keys without a dash; outside of these the list changes (proved)."
  },
  {
   "property": "C44",
   "status": "partial",
   "theorems": [
    "Xmp.Props.version_option_documented",
    "Xmp.Props.tag_plain",
    "Xmp.Props.tag_version",
    "Xmp.Props.tag_panics",
    "Xmp.Props.conflict_unversioned",
    "Xmp.Props.conflict_sound",
    "Xmp.Props.conflict_found_partial",
    "Xmp.Props.conflict_missed",
    "Xmp.Props.conflict_order",
    "Xmp.Props.metadata_fields"
   ],
   "note": "Names, options and version ranges are proved as documented; malformed version options panic; overlapping ranges are only refused in some cases (witnesses)."
  },
  {
   "property": "C36",
   "status": "partial",
   "theorems": [
    "Xmp.Props.translate_known",
    "Xmp.Props.translate_known_undeclared",
    "Xmp.Props.translate_unknown",
    "Xmp.Props.translate_idempotent",
    "Xmp.Props.tree_translate_idempotent",
    "Xmp.Props.tree_translate_names",
    "Xmp.Props.prefix_independent",
    "Xmp.Props.unknown_depends_on_prefix",
    "Xmp.Props.translate_collision",
    "Xmp.Props.translate_misnamed"
   ],
   "note": "Prefix independence proved for all documents whose declared namespaces are registered; names of unregistered namespaces keep the prefix of the document (witness), which can make names of two namespaces equal (proved)."
  },
  {
   "property": "C33",
   "status": "partial",
   "theorems": [
    "Xmp.Props.model_roundtrip",
    "Xmp.Props.model_roundtrip_tree",
    "Xmp.Props.field_found",
    "Xmp.Props.nameOK_known",
    "Xmp.Props.written_iff",
    "Xmp.Props.empty_is_zero",
    "Xmp.Props.repeated_array_joins",
    "Xmp.Props.repeated_field_joins",
    "Xmp.Props.attr_not_marshalled",
    "Xmp.Props.empty_array_not_read",
    "Xmp.Props.bad_item_panics",
    "Xmp.Props.version_rejects",
    "Xmp.Props.whitespace_lost",
    "Xmp.Props.omitted_lost"
   ],
   "note": "Round trip proved for all types built from structs, arrays, language alternatives, pointers and simple types and all values that meet Faithful (numbers in range, trimmed strings, arrays not empty, fields written or zero, names found); the other values are lost or rejected (theorems). Custom MarshalXMP methods other than those of arrays and AltString, and extension types, are not modelled."
  },
  {
   "property": "C34",
   "status": "partial",
   "theorems": [
    "Xmp.Props.json_roundtrip",
    "Xmp.Props.jsame_refl",
    "Xmp.Props.json_default_lost",
    "Xmp.Props.json_qualifiers_lost",
    "Xmp.Props.json_nested_lost",
    "Xmp.Props.json_no_language_lost",
    "Xmp.Props.json_alt_panics",
    "Xmp.Props.json_siblings_lost",
    "Xmp.Props.json_repeated_lost",
    "Xmp.Props.json_order_forgotten",
    "Xmp.Props.json_item_iff",
    "Xmp.Props.json_rdf_value",
    "Xmp.Props.json_single_item"
   ],
   "note": "Round trip proved for all trees of structs, arrays of texts and structs and language alternatives, for all visiting orders of JSON objects; the array type (Bag, Alt of structs) becomes Seq. Outside these shapes content is lost (theorems). The JSON text layer is treated in C68."
  },
  {
   "property": "C45",
   "status": "partial",
   "theorems": [
    "Xmp.Props.xml_roundtrip",
    "Xmp.Props.xml_roundtrip_indent",
    "Xmp.Props.xml_indent_value_lost",
    "Xmp.Props.xml_nameless_lost",
    "Xmp.Props.xml_one_piece",
    "Xmp.Props.xml_last_piece",
    "Xmp.Props.xml_comment_ignored"
   ],
   "note": "The tree round trip is proved for all trees with names, with indentation exactly for trees without an element that has both a value and children. The claim about divided texts is false: only the last piece is kept (xml_last_piece)."
  },
  {
   "property": "C46",
   "status": "partial",
   "theorems": [
    "Xmp.Props.document_roundtrip_partial",
    "Xmp.Props.docTrip_some_partial",
    "Xmp.Props.toolkit_lost",
    "Xmp.Props.about_lost",
    "Xmp.Props.repeated_element_lost",
    "Xmp.Props.declared_elsewhere_rejected"
   ],
   "note": "Proved for all documents described by DocOK (faithful fields, names with the prefixes of their node, distinct non-empty content outside of the models), all registries, declaration orders and indentations. The rest of the claim is false: toolkit, repeated or empty content and declarations on other elements are lost or rejected."
  },
  {
   "property": "C47",
   "status": "partial",
   "theorems": [
    "Xmp.Props.doc_listing_exact_partial",
    "Xmp.Props.doc_listed_is_readable_partial",
    "Xmp.Props.doc_held_is_readable",
    "Xmp.Props.node_listing_exact",
    "Xmp.Props.node_held_is_readable",
    "Xmp.Props.listed_is_held",
    "Xmp.Props.held_is_listed",
    "Xmp.Props.held_is_readable",
    "Xmp.Props.listed_is_readable",
    "Xmp.Props.default_text_unreadable",
    "Xmp.Props.same_local_name_confused",
    "Xmp.Props.foreign_field_unreadable",
    "Xmp.Props.nil_text_hides_all",
    "Xmp.Props.text_items_not_listed",
    "Xmp.Props.node_alt_unreadable"
   ],
   "note": "Proved for all models and node trees whose names can be part of a path, whose alternatives have distinct languages, whose local names differ and whose prefixes lead to their node (DocListable, DocWritable). Outside of this the claim is false (theorems). Maps, extensions and SyncToXMP hooks are not modelled."
  },
  {
   "property": "C48",
   "status": "partial",
   "theorems": [
    "Xmp.Props.date_round_trip",
    "Xmp.Props.date_zero_round_trip",
    "Xmp.Props.date_layout_read_partial",
    "Xmp.Props.date_layout_broken",
    "Xmp.Props.date_read_valid",
    "Xmp.Props.date_read_stable",
    "Xmp.Props.date_short_hour",
    "Xmp.Props.date_hour_only",
    "Xmp.Props.date_spare_zero",
    "Xmp.Props.date_illegal_zero",
    "Xmp.Props.time_layout_read",
    "Xmp.Props.time_round_trip",
    "Xmp.Props.time_zero",
    "Xmp.Props.date_fraction_lost",
    "Xmp.Props.date_offset_seconds_lost",
    "Xmp.Props.date_year_unread",
    "Xmp.Props.date_offset_unread"
   ],
   "note": "Proved for all dates and for 29 of the 30 layouts; texts of the remaining layout are always refused (date_layout_broken). Two-digit years are read as 1969 to 2068. Go's package time is modelled (Format and Parse for the elements in the layouts), not verified against its source."
  },
  {
   "property": "C49",
   "status": "partial",
   "theorems": [
    "Xmp.Props.tag_set",
    "Xmp.Props.tag_refused",
    "Xmp.Props.tag_refused_allocates",
    "Xmp.Props.tag_get",
    "Xmp.Props.tag_set_get",
    "Xmp.Props.tag_hidden",
    "Xmp.Props.tag_frame",
    "Xmp.Props.tag_unknown",
    "Xmp.Props.tag_set_ignored",
    "Xmp.Props.tag_get_refused",
    "Xmp.Props.tag_strings_set",
    "Xmp.Props.tag_strings_get",
    "Xmp.Props.locale_set_get",
    "Xmp.Props.locale_set_refused",
    "Xmp.Props.locale_get_panics",
    "Xmp.Props.tag_list",
    "Xmp.Props.tag_list_locale",
    "Xmp.Props.tag_list_ok",
    "Xmp.Props.tag_list_panics"
   ],
   "note": "Proved for all struct types with prefixed field names and distinct local names, all values and texts. Partial because the statement fails: a refused text allocates nil pointers, language alternatives and arrays without text form accept texts and ignore them, string arrays append, GetLocaleField panics for fields that are no alternative, ListNativeFields panics for bytes and arrays without text form."
  },
  {
   "property": "C50",
   "status": "partial",
   "theorems": [
    "Xmp.Props.versions_describe_changes",
    "Xmp.Props.last_version_current",
    "Xmp.Props.self_ref",
    "Xmp.Props.delete_found_ref",
    "Xmp.Props.later_modifier_lost",
    "Xmp.Props.set_previous_sets_last",
    "Xmp.Props.delete_index_panics"
   ],
   "note": "The main statement is proved for all sequences of steps from an empty version list, by an invariant over steps. Partial because of neighbouring functions that fail: later modifiers, actions and dates of a version are dropped, SetPreviousVersionId sets the last version, DeleteIndex panics for the length of the list."
  },
  {
   "property": "C51",
   "status": "partial",
   "theorems": [
    "Xmp.Props.identifier_plain",
    "Xmp.Props.identifier_described",
    "Xmp.Props.identifier_attribute",
    "Xmp.Props.identifier_roundtrip_partial",
    "Xmp.Props.identifier_scheme_lost",
    "Xmp.Props.identifier_text",
    "Xmp.Props.identifiers_contains",
    "Xmp.Props.identifiers_addUnique",
    "Xmp.Props.identifiers_remove",
    "Xmp.Props.thumbnail_exchanged"
   ],
   "note": "Reading is proved for all three forms. Partial because writing fails: every identifier with a scheme is lost, its text reads as value, Remove never removes, width and height of thumbnails are exchanged; each is proved for all inputs."
  },
  {
   "property": "C52",
   "status": "partial",
   "theorems": [
    "Xmp.Props.model_json_roundtrip",
    "Xmp.Props.json_alt_array_lost",
    "Xmp.Props.json_nested_array_refused",
    "Xmp.Props.json_alt_default_lost"
   ],
   "note": "Proved for all types and values with the stated conditions, by induction on the type. Partial because the conditions are needed: arrays of texts written as rdf:Alt are read as empty texts, arrays of arrays are refused, a default without language is lost; each is proved for all such values."
  },
  {
   "property": "C53",
   "status": "partial",
   "theorems": [
    "Xmp.Props.json_document_roundtrip_partial",
    "Xmp.Props.json_attributes_become_elements",
    "Xmp.Props.json_order_lost",
    "Xmp.Props.json_empty_values_lost",
    "Xmp.Props.json_model_names_ignored"
   ],
   "note": "Proved for all documents with the stated conditions and all orders of entries. Partial because the conditions are needed: the order of nodes is lost, attributes become elements, namespaces of only empty values are left out (witnesses), and the losses of C34 and C52 apply. Missing: documents in which two top-level nodes share a prefix."
  },
  {
   "property": "C54",
   "status": "partial",
   "theorems": [
    "Xmp.Props.exif_bytes_read",
    "Xmp.Props.exif_bytes_roundtrip",
    "Xmp.Props.exif_bytes_empty_kept",
    "Xmp.Props.exif_cfa_read",
    "Xmp.Props.exif_device_read",
    "Xmp.Props.exif_table_size_unchecked",
    "Xmp.Props.exif_table_panics",
    "Xmp.Props.exif_oecf_names_missing",
    "Xmp.Props.exif_oecf_read_partial",
    "Xmp.Props.exif_oecf_refused",
    "Xmp.Props.exif_flash_read",
    "Xmp.Props.exif_flash_roundtrip",
    "Xmp.Props.exif_date_read",
    "Xmp.Props.exif_date_roundtrip_partial",
    "Xmp.Props.exif_date_zone_lost",
    "Xmp.Props.exif_subsec_iff",
    "Xmp.Props.exif_subsec_ignored",
    "Xmp.Props.exif_no_date",
    "Xmp.Props.exif_artist_roundtrip_partial",
    "Xmp.Props.exif_artists_merged",
    "Xmp.Props.exif_software_wrong",
    "Xmp.Props.exif_software_lost",
    "Xmp.Props.exif_software_to_tool"
   ],
   "note": "Proved for all byte arrays, tables, flash numbers and for dates in all layouts. Partial because the code violates the rest: conversion tables are read with one name too few, so complete ones are refused; bad sizes crash; sub-seconds are ignored or written without leading zeros; zones are lost; several artists become one; software is not taken over. Coordinates are the subject of C66."
  },
  {
   "property": "C55",
   "status": "partial",
   "theorems": [
    "Xmp.Props.id3_genre_read",
    "Xmp.Props.id3_genre_roundtrip",
    "Xmp.Props.id3_genre_wraps",
    "Xmp.Props.id3_genres_iff",
    "Xmp.Props.id3_genres_added",
    "Xmp.Props.id3_genres_roundtrip",
    "Xmp.Props.id3_no_genres",
    "Xmp.Props.id3_date_read",
    "Xmp.Props.id3_date_iff",
    "Xmp.Props.id3_date_text",
    "Xmp.Props.id3_time_read",
    "Xmp.Props.id3_time_text",
    "Xmp.Props.id3_track_roundtrip",
    "Xmp.Props.id3_track_rest",
    "Xmp.Props.id3_tag_names",
    "Xmp.Props.id3_frames_renamed",
    "Xmp.Props.id3_content_type_misplaced",
    "Xmp.Props.id3_sync_panics",
    "Xmp.Props.id3_sync_panics_text",
    "Xmp.Props.id3_sync_carried_partial",
    "Xmp.Props.id3_compilation_erased",
    "Xmp.Props.id3_sync_title",
    "Xmp.Props.id3_sync_back_partial",
    "Xmp.Props.id3_sync_total_lost",
    "Xmp.Props.id3_sync_genres_doubled"
   ],
   "note": "Proved for genres, times, track numbers, tag names and the exchange of all tags. Partial because the code violates the rest: unknown genres of a list become the whole text, numbers above 255 wrap, day and month of old dates are exchanged, old dates crash the exchange, totals are lost, genres are doubled, the compilation mark is erased."
  },
  {
   "property": "C56",
   "status": "partial",
   "theorems": [
    "Xmp.Props.ixml_bool_iff",
    "Xmp.Props.ixml_bool_roundtrip",
    "Xmp.Props.ixml_bool_refuses",
    "Xmp.Props.ixml_sets_partial",
    "Xmp.Props.ixml_set_order",
    "Xmp.Props.ixml_del_repeated",
    "Xmp.Props.ixml_still_contained",
    "Xmp.Props.ixml_list_roundtrip",
    "Xmp.Props.ixml_list_text",
    "Xmp.Props.ixml_empty_list",
    "Xmp.Props.ixml_list_blank",
    "Xmp.Props.ixml_default_and_bad",
    "Xmp.Props.ixml_xy_blank",
    "Xmp.Props.ixml_flag_iff",
    "Xmp.Props.ixml_del_cells",
    "Xmp.Props.ixml_copy_changed",
    "Xmp.Props.ixml_predefined_changed",
    "Xmp.Props.ixml_copy_added",
    "Xmp.Props.ixml_sub_self",
    "Xmp.Props.ixml_sub_self_lcr",
    "Xmp.Props.ixml_upgrade_takes",
    "Xmp.Props.ixml_upgrade_types_first",
    "Xmp.Props.ixml_upgrade_keeps",
    "Xmp.Props.ixml_upgrade_count_partial",
    "Xmp.Props.ixml_upgrade_existing",
    "Xmp.Props.ixml_upgrade_high",
    "Xmp.Props.ixml_upgrade_twice",
    "Xmp.Props.ixml_clock",
    "Xmp.Props.ixml_frames_partial",
    "Xmp.Props.ixml_frames_lost",
    "Xmp.Props.ixml_frames_lost_25",
    "Xmp.Props.ixml_timecode_panics",
    "Xmp.Props.ixml_timecode_panics_zero",
    "Xmp.Props.ixml_formats",
    "Xmp.Props.ixml_formats_decimal",
    "Xmp.Props.ixml_5994_drop",
    "Xmp.Props.ixml_start_dropped",
    "Xmp.Props.ixml_sync",
    "Xmp.Props.ixml_sync_erases"
   ],
   "note": "Proved for truth values, sets with memory of their own, texts of lists, flags, the upgrade and the clock of the start timecode. Partial because the code violates the rest: copies of sets share memory, a set minus itself is not empty, repetitions are deleted once, the empty list becomes a list with an empty member, the upper half of an existing sync point is kept, frames are zero for whole rates, 59.94 non-drop is named drop, starts with other rates are dropped, absent values erase those of the document."
  },
  {
   "property": "C57",
   "status": "partial",
   "theorems": [
    "Xmp.Props.marker_same_rate",
    "Xmp.Props.marker_less_reversed",
    "Xmp.Props.marker_less_wrong",
    "Xmp.Props.marker_maximum_first",
    "Xmp.Props.marker_sort_partial",
    "Xmp.Props.marker_sort_exists",
    "Xmp.Props.marker_sort_wrong",
    "Xmp.Props.marker_filter",
    "Xmp.Props.marker_filter_none",
    "Xmp.Props.marker_intersect",
    "Xmp.Props.video_rate_numbers",
    "Xmp.Props.video_rate_names",
    "Xmp.Props.video_rate_unit",
    "Xmp.Props.video_rate_one"
   ],
   "note": "Proved for markers sharing one rate, for every outcome that the sorting library may choose, for filtering and for whole and fractional frame rates. Partial because the code violates the rest: counts are multiplied by their rates instead of divided, so markers with different rates are sorted the wrong way round, the mark for the maximum comes first, and empty texts and zero denominators are read as a rate of one."
  },
  {
   "property": "C58",
   "status": "partial",
   "theorems": [
    "Xmp.Props.qt_set_get_partial",
    "Xmp.Props.qt_set_get_str_partial",
    "Xmp.Props.qt_frame",
    "Xmp.Props.qt_copyright_ignored",
    "Xmp.Props.qt_copyright_tags",
    "Xmp.Props.qt_can_tag",
    "Xmp.Props.qt_can_tag_wrong",
    "Xmp.Props.qt_embedded_refused",
    "Xmp.Props.qt_ixml",
    "Xmp.Props.qt_unknown_ignored",
    "Xmp.Props.qt_extension_dropped",
    "Xmp.Props.qt_lists_nothing"
   ],
   "note": "Proved for all listed tags that do not begin with the copyright sign: the right part, reading back and no effect on other tags. Partial because the code violates the rest: 70 tags of user data are ignored because they are compared as four bytes but have five, CanTag compares prefixes the wrong way round, unknown tags are dropped without an error, embedded documents in tags of four bytes are always refused, and ListTags lists nothing."
  },
  {
   "property": "C59",
   "status": "partial",
   "theorems": [
    "Xmp.Props.dup_tags_fail",
    "Xmp.Props.riff_tags_fail",
    "Xmp.Props.riff_lookup_fails",
    "Xmp.Props.tags_distinct_partial",
    "Xmp.Props.riff_xmp_ok",
    "Xmp.Props.riff_list_text",
    "Xmp.Props.riff_list_empty",
    "Xmp.Props.riff_alt_text",
    "Xmp.Props.riff_alt_first",
    "Xmp.Props.riff_sync_from_partial",
    "Xmp.Props.riff_sync_clears",
    "Xmp.Props.riff_sync_to",
    "Xmp.Props.riff_medium_lost"
   ],
   "note": "Proved for the texts, for the exchange with Dublin Core, the basic and the dynamic media schema, and for every struct whose tags differ. Partial because the code violates the rest: RiffInfo names two tags twice, so no RIFF tag can be read, set or listed; all items of a language alternative get the same language; the source medium and the software are overwritten by empty texts."
  },
  {
   "property": "C60",
   "status": "partial",
   "theorems": [
    "Xmp.Props.duration_parts",
    "Xmp.Props.duration_text_roundtrip",
    "Xmp.Props.duration_json_roundtrip",
    "Xmp.Props.duration_reads_only",
    "Xmp.Props.duration_spaces",
    "Xmp.Props.duration_seconds_partial",
    "Xmp.Props.duration_seconds_wrong",
    "Xmp.Props.duration_seconds_spaces",
    "Xmp.Props.duration_round_partial",
    "Xmp.Props.duration_round_wraps"
   ],
   "note": "Proved: round trips for all 2^64 durations, reading of all texts of numbers with units with up to 18 digits after the point, white space anywhere, and that nothing else is read. Partial because the code violates the rest: large whole numbers of seconds overflow without an error, white space around a whole number makes it unreadable, and durations are rounded away from zero, beyond 64 bits for the longest."
  },
  {
   "property": "C61",
   "status": "partial",
   "theorems": [
    "Xmp.Props.qt_point_reads",
    "Xmp.Props.qt_point_separators",
    "Xmp.Props.qt_point_roundtrip_partial",
    "Xmp.Props.qt_point_zero",
    "Xmp.Props.qt_point_comma_blank",
    "Xmp.Props.crs_point_reads",
    "Xmp.Props.crs_point_roundtrip",
    "Xmp.Props.crs_point_no_blank",
    "Xmp.Props.smpb_reads",
    "Xmp.Props.smpb_high_refused",
    "Xmp.Props.smpb_missing",
    "Xmp.Props.prefs_roundtrip",
    "Xmp.Props.prefs_reads",
    "Xmp.Props.prefs_unchecked",
    "Xmp.Props.pm_time_roundtrip",
    "Xmp.Props.pm_time_zero",
    "Xmp.Props.location_exchange",
    "Xmp.Props.location_shifted",
    "Xmp.Props.location_west",
    "Xmp.Props.location_no_name",
    "Xmp.Props.location_kept",
    "Xmp.Props.location_fields_kept"
   ],
   "note": "Proved: exact reading of points, notes on gapless playback and preferences, and round trips. Partial because the code violates the rest: the zero point of QuickTime is written as nothing and refused, 32-bit fields with the highest bit are refused and missing ones are read as zero, documented ranges are not checked, and coordinates in the form of the standard are shifted or merged."
  },
  {
   "property": "C62",
   "status": "partial",
   "theorems": [
    "Xmp.Props.exchange_first",
    "Xmp.Props.exchange_twice",
    "Xmp.Props.pdf_exchange",
    "Xmp.Props.tiff_exchange_partial",
    "Xmp.Props.tiff_software_ignored",
    "Xmp.Props.tiff_artist_blanks",
    "Xmp.Props.pdf_erased",
    "Xmp.Props.tiff_erased",
    "Xmp.Props.exchange_from_nothing",
    "Xmp.Props.pdf_copyright_stale"
   ],
   "note": "Proved: the result of storing for all lists of models, that it is idempotent, and the way through an empty document. Partial because the code violates the rest: the software in the wrong place of TIFF is never used, artists in the wrong place keep blanks, and reading erases properties when the document's places are empty."
  },
  {
   "property": "C63",
   "status": "partial",
   "theorems": [
    "Xmp.Props.named_write",
    "Xmp.Props.named_read",
    "Xmp.Props.named_roundtrip",
    "Xmp.Props.named_attr_grows",
    "Xmp.Props.named_second_write_malformed",
    "Xmp.Props.named_same_name_lost",
    "Xmp.Props.named_text_lost",
    "Xmp.Props.named_find",
    "Xmp.Props.ext_read",
    "Xmp.Props.ext_write",
    "Xmp.Props.ext_roundtrip",
    "Xmp.Props.ext_attrs_dropped",
    "Xmp.Props.ext_attribute_lost",
    "Xmp.Props.ext_unknown",
    "Xmp.Props.ext_unknown_attribute_fails",
    "Xmp.Props.ext_find",
    "Xmp.Props.bag_roundtrip",
    "Xmp.Props.bag_empty"
   ],
   "note": "Proved: round trips of extensions without models, of bags and of named extensions with different names (which get an attribute). Partial because the code violates the rest: rdf:parseType is added again in every cycle, extensions of one name replace each other, texts and attributes are lost, an unknown attribute makes the extension unreadable."
  },
  {
   "property": "C64",
   "status": "partial",
   "theorems": [
    "Xmp.Props.base64_alphabet",
    "Xmp.Props.base64_roundtrip",
    "Xmp.Props.base64_digits",
    "Xmp.Props.isBase64_iff",
    "Xmp.Props.raw_is_base64",
    "Xmp.Props.raw_decode_iff",
    "Xmp.Props.raw_not_injective",
    "Xmp.Props.raw_no_inverse",
    "Xmp.Props.raw_set_iff",
    "Xmp.Props.raw_simple",
    "Xmp.Props.raw_written_iff"
   ],
   "note": "Proved: the encoding for all byte sequences (round trip, alphabet, order of digits, padding), validity and idempotence of the text, and exactly when it can be decoded. Partial because the code violates the rest: the text is ambiguous for bytes that are base64 texts, and differs from the text in documents."
  },
  {
   "property": "C65",
   "status": "partial",
   "theorems": [
    "Xmp.Props.struct_zero_iff",
    "Xmp.Props.struct_guard_invisible",
    "Xmp.Props.struct_roundtrip",
    "Xmp.Props.job_roundtrip",
    "Xmp.Props.thumbnail_swapped",
    "Xmp.Props.ref_zero_iff",
    "Xmp.Props.ref_lost",
    "Xmp.Props.ref_written",
    "Xmp.Props.matrix_write",
    "Xmp.Props.flash_lost"
   ],
   "note": "Proved for all values: exactly when each struct counts as zero, that the test changes nothing for five structs, round trips. Partial because the code violates the rest: references with only ManageUI, matrices without columns or rows and flashes that are all zero are lost; width and height of thumbnails are swapped."
  },
  {
   "property": "C66",
   "status": "partial",
   "theorems": [
    "Xmp.Props.coord_position",
    "Xmp.Props.coord_same",
    "Xmp.Props.coord_error",
    "Xmp.Props.coord_never_zero",
    "Xmp.Props.coord_sixty",
    "Xmp.Props.coord_negative",
    "Xmp.Props.float_rational",
    "Xmp.Props.decimal_below_one",
    "Xmp.Props.decimal_unit",
    "Xmp.Props.decimal_negative_wrong",
    "Xmp.Props.coord_refused",
    "Xmp.Props.coord_decimal",
    "Xmp.Props.coord_decimal_text",
    "Xmp.Props.coord_sign_lost",
    "Xmp.Props.stamp_whole",
    "Xmp.Props.stamp_near",
    "Xmp.Props.stamp_invalid"
   ],
   "note": "Proved in exact arithmetic for all coordinates: the error bounds, the form of the text, independence of how the position is split, exactly when 60 minutes are written. Partial because floating point rounding is not modelled, and because the code violates the rest: minutes of 60, signs that are doubled or lost, negative decimal fractions, invalid time stamps."
  },
  {
   "property": "C67",
   "status": "partial",
   "theorems": [
    "Xmp.Props.gather_list",
    "Xmp.Props.gather_unchanged",
    "Xmp.Props.gather_nodup",
    "Xmp.Props.gather_has_sources",
    "Xmp.Props.gather_only_sources",
    "Xmp.Props.gather_idempotent",
    "Xmp.Props.identifiers_gathered",
    "Xmp.Props.empty_identifier_blocks",
    "Xmp.Props.quicktime_ids_missed",
    "Xmp.Props.bare_identifier_hides"
   ],
   "note": "Proved for all documents and lists whose entries have a text. Partial because the code violates the rest: an entry without text stops everything, a first entry equal to the bare text of a source hides it, and four QuickTime identifiers are never found."
  },
  {
   "property": "C68",
   "status": "partial",
   "theorems": [
    "Xmp.Props.json_text_survives_iff",
    "Xmp.Props.json_text_never_fails",
    "Xmp.Props.json_text_injective",
    "Xmp.Props.latin1_lost",
    "Xmp.Props.json_tree_roundtrip",
    "Xmp.Props.json_text_safe",
    "Xmp.Props.deep_json_refused",
    "Xmp.Props.repeated_key_last",
    "Xmp.Props.json_members_roundtrip",
    "Xmp.Props.json_keys_distinct",
    "Xmp.Props.json_text_document_roundtrip_partial"
   ],
   "note": "Proved for all strings and JSON values without numbers, and for the documents of C53 whose strings are UTF-8. Partial because other bytes are replaced without an error, values nested more than 10000 deep cannot be read back, and documents outside of C53 are not covered."
  },
  {
   "property": "C69",
   "status": "partial",
   "theorems": [
    "Xmp.Props.xml_value_survives_iff",
    "Xmp.Props.xml_chars_survive_iff",
    "Xmp.Props.xml_text_never_fails",
    "Xmp.Props.xml_text_injective",
    "Xmp.Props.xml_text_safe",
    "Xmp.Props.xml_text_lost",
    "Xmp.Props.control_replaced",
    "Xmp.Props.xml_tree_read",
    "Xmp.Props.xml_packet_read",
    "Xmp.Props.xml_tree_roundtrip",
    "Xmp.Props.xml_text_document_roundtrip_partial",
    "Xmp.Props.blank_name_unreadable",
    "Xmp.Props.blank_name_document",
    "Xmp.Props.attribute_injected",
    "Xmp.Props.xml_text_accepted",
    "Xmp.Props.hex_reference_read",
    "Xmp.Props.mismatched_end_refused"
   ],
   "note": "Proved for all strings and for all trees with names of XML, and for the documents of C46 whose written trees have names and texts of XML. Partial because names are written unchecked and other characters are replaced without an error, both shown, and documents outside of C46 are not covered. The rules for names with non-ASCII characters are a parameter."
  },
  {
   "property": "C70",
   "status": "partial",
   "theorems": [
    "Xmp.Props.document_has_no_end_marker",
    "Xmp.Props.embedded_packet_found",
    "Xmp.Props.scanned_document_roundtrip_partial",
    "Xmp.Props.stray_marker_hides",
    "Xmp.Props.scan_found"
   ],
   "note": "Proved from document to stream and back, for all deliveries of the bytes that do not cut the start marker and all packets up to 61440 bytes, without a condition that scanning succeeds. Partial because the code violates the rest: cut markers and larger packets are lost (C25), and a stray start marker before the packet hides it, as shown."
  },
  {
   "property": "C71",
   "status": "partial",
   "theorems": [
    "Xmp.Props.shipped_resolved",
    "Xmp.Props.shipped_unused",
    "Xmp.Props.used_prefixes_known_partial",
    "Xmp.Props.used_prefixes_unknown",
    "Xmp.Props.digikam_not_registered",
    "Xmp.Props.shipped_lawful",
    "Xmp.Props.typed_access",
    "Xmp.Props.own_model_breaks_access",
    "Xmp.Props.unknown_prefix_not_written",
    "Xmp.Props.drone_name_moves"
   ],
   "note": "Proved for all sets of packages, orders and histories, over the complete table of packages. Partial because the code violates the rest: xmp_tpg and dji use prefixes they do not register (so documents cannot be written, or a field comes back in another model), importing models leaves out digiKam, and a program's own model for a shipped prefix makes FindModel panic and MakeModel return nil without an error."
  },
  {
   "property": "C72",
   "status": "partial",
   "theorems": [
    "Xmp.Props.shipped_roundtrip_partial",
    "Xmp.Props.foreign_never_read",
    "Xmp.Props.shipped_unsound",
    "Xmp.Props.shipped_mismatches",
    "Xmp.Props.struct_read_as_text",
    "Xmp.Props.riff_alt_split",
    "Xmp.Props.shipped_foreign_lost"
   ],
   "note": "The round trip is proved for all values that the types read back from their own texts, with the fields that have a foreign prefix or a mismatched form left empty. For these the code violates the property, which is proved for all values and trees: structs written as fields and read as text all become one value, the default of riff alternatives is split, and fields with a prefix of another namespace are never set by reading. Extensions, the tiff subsampling array, timecodes, identifiers and the pantry are not described here."
  },
  {
   "property": "C73",
   "status": "partial",
   "theorems": [
    "Xmp.Props.shipped_tag_set",
    "Xmp.Props.shipped_tag_set_get",
    "Xmp.Props.shipped_tag_frame",
    "Xmp.Props.shipped_tag_strings",
    "Xmp.Props.shipped_tag_unknown",
    "Xmp.Props.exifEX_tags_unknown",
    "Xmp.Props.exif_untagged_never_set",
    "Xmp.Props.exif_can_tag_case",
    "Xmp.Props.shipped_set_silent",
    "Xmp.Props.shipped_tag_kinds",
    "Xmp.Props.shipped_tags_unread",
    "Xmp.Props.exif_gps_never_can",
    "Xmp.Props.shipped_tags_refused",
    "Xmp.Props.shipped_tag_others",
    "Xmp.Props.qt_second_tags_lost",
    "Xmp.Props.shipped_tag_spelled",
    "Xmp.Props.shipped_can_tag_new",
    "Xmp.Props.locale_tags_useless",
    "Xmp.Props.shipped_tag_list",
    "Xmp.Props.shipped_list_ok",
    "Xmp.Props.shipped_list_panics",
    "Xmp.Props.id3_old_tags",
    "Xmp.Props.id3_unknown_length"
   ],
   "note": "Proved for all tags whose fields hold one text or a list of strings; RiffInfo is left out (C59). The code violates the rest, proved for all values: 89 tags are set without effect, ten can not be read, 15 fields of ExifInfo and all 19 tags of ExifEXInfo can not be reached, the second tags of QtMetadata and all unknown tags of three models are thrown away silently, texts by language are useless in Exif and ID3, and listing panics for bytes. Text forms of types are parameters; slices and structs without text are described by their emptiness."
  },
  {
   "property": "C74",
   "status": "partial",
   "theorems": [
    "Xmp.Props.encode_xml",
    "Xmp.Props.document_bytes_roundtrip_partial",
    "Xmp.Props.shipped_bytes_roundtrip_partial"
   ],
   "note": "The conditions of C69 and C70 on the tree that is written are traced back to the document: names of namespaces, of fields and of elements outside of models, and texts of values. For the shipped models the names are checked by the kernel. Missing are what C46 and C72 leave out (values that can not be read back, fields with a foreign prefix) and packets of more than 61440 bytes in streams (C25)."
  },
  {
   "property": "C75",
   "status": "partial",
   "theorems": [
    "Xmp.Props.document_utf8",
    "Xmp.Props.document_json_text_roundtrip_partial",
    "Xmp.Props.shipped_json_roundtrip_partial"
   ],
   "note": "The conditions of C53 and C68 on the JSON that is written are traced back to the document: texts of UTF-8, depth of types, fields that leave a trace. That no shipped array has arrays or alternatives as elements, that types are nested less than 20 deep, and the names of fields and namespaces are checked by the kernel. Missing are the values that C52 and C72 leave out (alternatives whose default text is repeated, texts that are not read back, fields with a foreign prefix) and fields that are written without a text."
  },
  {
   "property": "C76",
   "status": "partial",
   "theorems": [
    "Xmp.Props.forms_read_alike",
    "Xmp.Props.description_transparent",
    "Xmp.Props.document_forms_read_alike",
    "Xmp.Props.uri_text_read",
    "Xmp.Props.uri_resource_lost",
    "Xmp.Props.uri_qualified_lost",
    "Xmp.Props.qualified_text_lost",
    "Xmp.Props.qualified_number_refused",
    "Xmp.Props.unknown_entry_refused",
    "Xmp.Props.unknown_entry_refused_document",
    "Xmp.Props.default_namespace_refused"
   ],
   "note": "Elements that say the same (a relation over types, separate from the decoder) are read as the same value, at any depth; documents that say the same are read as the same document up to the order of its models. Documents: every property belongs to a field of a model that handles one prefix, no field is mentioned twice. False for URIs in rdf:resource, for values with qualifiers, for structs with unknown entries and for default namespaces: proved as findings."
  },
  {
   "property": "C77",
   "status": "partial",
   "theorems": [
    "Xmp.Props.ixml_list_items",
    "Xmp.Props.ixml_order_irrelevant",
    "Xmp.Props.ixml_chunk_survives_partial",
    "Xmp.Props.ixml_chunk_reread",
    "Xmp.Props.ixml_unknown_kept",
    "Xmp.Props.ixml_last_text",
    "Xmp.Props.ixml_bool_refuses_chunk",
    "Xmp.Props.ixml_flag_refuses_chunk",
    "Xmp.Props.ixml_other_root",
    "Xmp.Props.ixml_version_stays",
    "Xmp.Props.ixml_count_ignored",
    "Xmp.Props.ixml_unset_rates_written"
   ],
   "note": "What is read from a chunk without prefixes is read again after writing (no other condition); values made in memory survive under the conditions listed in `FitsXml`. The reflection of encoding/xml is described by the model, not derived from its code. Extensions with prefixes are not covered. Truth values and timecode flags that refuse a whole chunk, the version number and the empty rates: proved as findings."
  },
  {
   "property": "C78",
   "status": "partial",
   "theorems": [
    "Xmp.Props.getPath_kept",
    "Xmp.Props.edit_saves",
    "Xmp.Props.edits_saved_partial",
    "Xmp.Props.edit_frame",
    "Xmp.Props.session_saved_partial",
    "Xmp.Props.session_keeps_partial",
    "Xmp.Props.unknown_item_unreadable"
   ],
   "note": "Sessions of edits, saving and loading in any order are covered, and a value stays until an edit touches its path. Edits set values whose text is the text of the value read from it, with flags that allow to create and replace, at fields of the own namespace; a new model must be savable while empty; `IsZero` must hold of empty structs only (C65 shows which structs violate it). Language alternatives, deletion, appending by flag and unknown properties are not edits in this sense. That an unknown property of an array item makes the saved file unreadable is proved as a finding."
  },
  {
   "property": "C79",
   "status": "partial",
   "theorems": [
    "Xmp.Props.info_prints_original",
    "Xmp.Props.info_prints_all",
    "Xmp.Props.info_shows_paths_partial",
    "Xmp.Props.info_json_partial",
    "Xmp.Props.info_json_saved_partial",
    "Xmp.Props.info_reprinted_partial",
    "Xmp.Props.info_quiet_partial",
    "Xmp.Props.quiet_prints_paths",
    "Xmp.Props.all_hides_others",
    "Xmp.Props.all_shows_first",
    "Xmp.Props.other_extension_silent"
   ],
   "note": "The JSON output is the indented text of the document (`PrintsJson`), with the conditions of C75; packets of more than 61440 bytes and reads that cut the start marker are missing (C25); values must be readable from what is written and be texts of XML. That -quiet prints nothing is false for -path (finding), and -all is ignored by the other outputs (finding)."
  },
  {
   "property": "C80",
   "status": "partial",
   "theorems": [
    "Xmp.Props.json_forms_read",
    "Xmp.Props.json_indent_form",
    "Xmp.Props.json_document_forms",
    "Xmp.Props.json_document_indented",
    "Xmp.Props.shipped_json_forms_partial"
   ],
   "note": "Numbers are not among the forms (the library writes values as strings); names of foreign entries are ASCII; nesting up to the limit of encoding/json; conditions of C75 for the models."
  },
  {
   "property": "C81",
   "status": "partial",
   "theorems": [
    "Xmp.Props.formats_mixed_partial",
    "Xmp.Props.formats_step_partial"
   ],
   "note": "Conditions of C74 and C75 on the values: readable from what is written, no field with a prefix of another namespace set, texts of XML and UTF-8; the forms of JSON are those of C80 (no numbers). The toolkit name is not kept (C53)."
  },
  {
   "property": "C82",
   "status": "proved",
   "theorems": [
    "Xmp.Props.locales_read",
    "Xmp.Props.locales_refused",
    "Xmp.Props.dates_read",
    "Xmp.Props.locales_saved",
    "Xmp.Props.dates_saved",
    "Xmp.Props.dates_text_saved",
    "Xmp.Props.locales_untrimmed",
    "Xmp.Props.locales_typed",
    "Xmp.Props.dates_typed"
   ],
   "note": "Fractions of seconds are lost when dates are saved (C48). The white space around one text is kept while that of array elements is trimmed (finding); texts of XML have none. locales_typed and dates_typed show that the table of types (C72) describes both methods except for the form of one text."
  },
  {
   "property": "C83",
   "status": "partial",
   "theorems": [
    "Xmp.Props.work_saved_partial",
    "Xmp.Props.work_keeps_partial"
   ],
   "note": "For edits that set a text, number or other leaf with CREATE and REPLACE (Edit, C78) and documents of the models of the library; that the texts are texts of XML and JSON is a condition on each saved document (Portables), kept by saving and loading but not derived from the texts of the edits."
  },
  {
   "property": "C84",
   "status": "partial",
   "theorems": [
    "Xmp.Props.matchAttr_iff",
    "Xmp.Props.matchPath_iff",
    "Xmp.Props.matchXml_iff",
    "Xmp.Props.expand_own",
    "Xmp.Props.match_expand",
    "Xmp.Props.match_exclusive",
    "Xmp.Props.newPath_match",
    "Xmp.Props.translated_match",
    "Xmp.Props.bare_name_matches",
    "Xmp.Props.split_foreign",
    "Xmp.Props.foreign_captured"
   ],
   "note": "Everything but the last clause is proved. Not true in the code: a name without colon counts as its own prefix (bare_name_matches), so that a foreign element whose local name equals a declared prefix is read as a property of that namespace (foreign_captured)."
  },
  {
   "property": "C85",
   "status": "partial",
   "theorems": [
    "Xmp.Props.timecode_saved",
    "Xmp.Props.timecode_json",
    "Xmp.Props.timecode_attributes",
    "Xmp.Props.timecode_value_lost",
    "Xmp.Props.timecode_numbers_lost",
    "Xmp.Props.timecode_missing",
    "Xmp.Props.timecode_field",
    "Xmp.Props.ixml_timecode_saved"
   ],
   "note": "The last clause is false in the code: the value is never written, and a timecode of numbers alone counts as zero (timecode_value_lost, timecode_numbers_lost). The decoder is one without a version (the default)."
  },
  {
   "property": "C86",
   "status": "partial",
   "theorems": [
    "Xmp.Props.subSampling_named",
    "Xmp.Props.subSampling_injective",
    "Xmp.Props.subSampling_saved",
    "Xmp.Props.subSampling_lost"
   ],
   "note": "The last clause holds for every list that does not count as zero, in particular for every list with a name; it is false for lists of one number and for lists that begin with two zeros (subSampling_lost)."
  },
  {
   "property": "C87",
   "status": "partial",
   "theorems": [
    "Xmp.Props.log_shown",
    "Xmp.Props.log_default",
    "Xmp.Props.log_formatted",
    "Xmp.Props.log_formatted_line",
    "Xmp.Props.log_plain_mangled"
   ],
   "note": "The last clause is false in the code (log_plain_mangled). Other verbs than %s and loggers set by SetLogger are not modelled."
  }
 ]
}
