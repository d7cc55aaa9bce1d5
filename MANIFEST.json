{
 "claims": [
  {
   "property": "C01",
   "status": "proved",
   "theorems": [
    "Kml.Color32.C01_text_is_hex",
    "Kml.Color32.C01_round_trip"
   ],
   "note": ""
  },
  {
   "property": "C02",
   "status": "proved",
   "theorems": [
    "Kml.Color32.C02_getters",
    "Kml.Color32.C02_setters",
    "Kml.Color32.C02_argb_swaps",
    "Kml.Color32.C02_argb_text",
    "Kml.Color32.C02_argb_round_trip",
    "Kml.Color32.C02_set_four",
    "Kml.Color32.C02_fresh",
    "Kml.Color32.C02_made",
    "Kml.Color32.C02_signed",
    "Kml.Color32.C02_whatever",
    "Kml.Color32.C02_equal",
    "Kml.Color32.C02_order"
   ],
   "note": ""
  },
  {
   "property": "C03",
   "status": "partial",
   "theorems": [
    "Kml.Color32.C03_safe_iff",
    "Kml.Color32.C03_violated",
    "Kml.Color32.C03_safe_partial",
    "Kml.Color32.C03_short_hash_value_violated"
   ],
   "note": "Violated: `set_color_abgr` reads past the end of a string of at least 8 characters that has white space or # before fewer than 8 digits. Exact safety condition proved (C03_safe_iff)."
  },
  {
   "property": "C04",
   "status": "partial",
   "theorems": [
    "Kml.StringUtil.C04_terminates",
    "Kml.StringUtil.C04_untouched",
    "Kml.StringUtil.C04_replaces_all_partial",
    "Kml.StringUtil.C04_violated",
    "Kml.StringUtil.C04_self_value_violated"
   ],
   "note": "Termination and the no-placeholder case are proved in full. Replacing every placeholder is false in two ways (C04_violated, C04_self_value_violated); proved for templates whose values do not contain their name and whose placeholders are followed by enough text."
  },
  {
   "property": "C05",
   "status": "proved",
   "theorems": [
    "Kml.StringUtil.C05_split_join",
    "Kml.StringUtil.C05_join_split",
    "Kml.StringUtil.C05_empty_separator_throws",
    "Kml.StringUtil.C05_long_separator_violated"
   ],
   "note": "Also shown: outside the property, an empty separator always throws and a longer separator is cut wrongly."
  },
  {
   "property": "C06",
   "status": "proved",
   "theorems": [
    "Kml.StringUtil.C06_quoted_round_trip",
    "Kml.StringUtil.C06_plain_round_trip",
    "Kml.StringUtil.C06_nul_violated"
   ],
   "note": "The NUL restriction is necessary (C06_nul_violated)."
  },
  {
   "property": "C07",
   "status": "proved",
   "theorems": [
    "Kml.StringUtil.C07_lines",
    "Kml.StringUtil.C07_lines_unique"
   ],
   "note": ""
  },
  {
   "property": "C08",
   "status": "proved",
   "theorems": [
    "Kml.StringUtil.C08_ends_with",
    "Kml.StringUtil.C08_case_equal",
    "Kml.StringUtil.C08_case_equivalence",
    "Kml.StringUtil.C08_case_equal_nul_violated",
    "Kml.StringUtil.C08_decimal"
   ],
   "note": "The NUL restriction on StringCaseEqual is necessary (C08_case_equal_nul_violated)."
  },
  {
   "property": "C09",
   "status": "proved",
   "theorems": [
    "Kml.StringUtil.C09_bool_round_trip",
    "Kml.StringUtil.C09_bool_true_iff"
   ],
   "note": ""
  },
  {
   "property": "C10",
   "status": "proved",
   "theorems": [
    "Kml.Attributes.C10_get",
    "Kml.Attributes.C10_size",
    "Kml.Attributes.C10_cut_value",
    "Kml.Attributes.C10_bool",
    "Kml.Attributes.C10_clone"
   ],
   "note": ""
  },
  {
   "property": "C11",
   "status": "partial",
   "theorems": [
    "Kml.Attributes.C11_create",
    "Kml.Attributes.C11_create_array",
    "Kml.Attributes.C11_odd_violated",
    "Kml.Attributes.C11_serialize_partial",
    "Kml.Attributes.C11_serialize_violated",
    "Kml.Attributes.C11_exact",
    "Kml.Dom.C11_nesting_violated"
   ],
   "note": "Violated: a list of odd length makes Create throw (C11_odd_violated), and values are written without escaping (C11_serialize_violated). Proved: last value wins; the text reads back exactly when no value has a quote, an ampersand, a less-than sign, a tab or a line end (C11_exact)."
  },
  {
   "property": "C12",
   "status": "proved",
   "theorems": [
    "Kml.Attributes.C12_split"
   ],
   "note": ""
  },
  {
   "property": "C13",
   "status": "proved",
   "theorems": [
    "Kml.NetCache.C13_bounded",
    "Kml.NetCache.C13_zero_capacity_violated"
   ],
   "note": "The restriction to N >= 1 is necessary (C13_zero_capacity_violated)."
  },
  {
   "property": "C14",
   "status": "proved",
   "theorems": [
    "Kml.NetCache.C14_behaves_as_queue",
    "Kml.NetCache.C14_lookup",
    "Kml.NetCache.C14_fetch_cached",
    "Kml.NetCache.C14_save_existing",
    "Kml.NetCache.C14_save_lookup",
    "Kml.NetCache.C14_delete_lookup"
   ],
   "note": ""
  },
  {
   "property": "C15",
   "status": "proved",
   "theorems": [
    "Kml.NetCache.C15_evicts_oldest"
   ],
   "note": ""
  },
  {
   "property": "C16",
   "status": "proved",
   "theorems": [
    "Kml.StringUtil.C16_join_split",
    "Kml.StringUtil.C16_join_split_slash",
    "Kml.StringUtil.C16_join_empty",
    "Kml.StringUtil.C16_no_separator"
   ],
   "note": ""
  },
  {
   "property": "C17",
   "status": "proved",
   "theorems": [
    "Kml.DateTime.C17_epoch",
    "Kml.DateTime.C17_next_day",
    "Kml.DateTime.C17_days",
    "Kml.DateTime.C17_every_date",
    "Kml.DateTime.C17_before_1970_violated"
   ],
   "note": "The restriction to years from 1970 is necessary (C17_before_1970_violated)."
  },
  {
   "property": "C18",
   "status": "partial",
   "theorems": [
    "Kml.XmlElement.C18_parent_permanent",
    "Kml.XmlElement.C18_file_permanent",
    "Kml.XmlElement.C18_one_parent",
    "Kml.XmlElement.C18_set_file",
    "Kml.XmlElement.C18_delete",
    "Kml.XmlElement.C18_add_only_free",
    "Kml.XmlElement.C18_acyclic_partial",
    "Kml.XmlElement.C18_cycle_violated",
    "Kml.XmlElement.C18_same_file_violated",
    "Kml.XmlElement.C18_deleted_child_stays_attached"
   ],
   "note": "Proved: at most one parent, parent and file never change, attach only within one file. Violated: an element can be attached below itself, and parent and child can come to be in different files. Acyclicity is proved for histories that do not attach an element below itself."
  },
  {
   "property": "C19",
   "status": "proved",
   "theorems": [
    "Kml.Referent.C19_no_use_after_free",
    "Kml.Referent.C19_watched",
    "Kml.Referent.C19_alive_iff_pointed",
    "Kml.Referent.C19_freed_once",
    "Kml.Referent.C19_count",
    "Kml.Referent.C19_cycle_leaks"
   ],
   "note": "Cycles of pointers are never freed (C19_cycle_leaks), as the property allows."
  },
  {
   "property": "C20",
   "status": "partial",
   "theorems": [
    "Kml.ZipFile.C20_refused",
    "Kml.ZipFile.C20_inside_partial",
    "Kml.ZipFile.C20_violated",
    "Kml.ZipFile.C20_toc",
    "Kml.ZipFile.C20_read_only"
   ],
   "note": "Violated: a path such as a/../../x is accepted. Proved: absolute paths and leading .. are refused, accepted paths without later .. stay inside, and the table of contents is exact."
  },
  {
   "property": "C21",
   "status": "proved",
   "theorems": [
    "Kml.Xsd.C21_name_to_id",
    "Kml.Xsd.C21_icon",
    "Kml.Xsd.C21_names_differ",
    "Kml.Xsd.C21_unknown",
    "Kml.Xsd.C21_outside",
    "Kml.Xsd.C21_names_right",
    "Kml.Xsd.C21_enums_right",
    "Kml.Xsd.C21_enum_read_write",
    "Kml.Xsd.C21_enum_write_read",
    "Kml.Xsd.C21_enum_unknown",
    "Kml.Xsd.C21_enum_past_end"
   ],
   "note": ""
  },
  {
   "property": "C22",
   "status": "partial",
   "theorems": [
    "Kml.Xsd.C22_violated",
    "Kml.Xsd.C22_partial",
    "Kml.Xsd.C22_all_wrong_after"
   ],
   "note": "Violated: from some type on the names are those of other types (C22_violated, C22_all_wrong_after); proved for the types before."
  },
  {
   "property": "C23",
   "status": "partial",
   "theorems": [
    "Kml.Coords.C23_parse_partial",
    "Kml.Coords.C23_values",
    "Kml.Coords.C23_hang_violated",
    "Kml.Coords.C23_uninitialised_violated",
    "Kml.Coords.C23_overflow_violated"
   ],
   "note": "Violated: blank text loops (C23_hang_violated), a missing number is read uninitialised (C23_uninitialised_violated), a long token overflows a buffer (C23_overflow_violated). Proved total, safe and with its values (C23_values) for the other texts."
  },
  {
   "property": "C24",
   "status": "partial",
   "theorems": [
    "Kml.Coords.C24_pretty_partial",
    "Kml.Coords.C24_raw_partial",
    "Kml.Coords.C24_raw_violated"
   ],
   "note": "Pretty output reads back for every list of points; raw output only for one point (C24_raw_violated)."
  },
  {
   "property": "C25",
   "status": "partial",
   "theorems": [
    "Kml.Dom.C25_exact",
    "Kml.Dom.C25_quoted_partial",
    "Kml.Dom.C25_element_partial",
    "Kml.Dom.C25_end_mark_violated",
    "Kml.Dom.C25_quot_violated",
    "Kml.Dom.C25_amp_violated",
    "Kml.Dom.C25_control_violated"
   ],
   "note": "Proved with an exact domain: a text survives if and only if it consists of XML characters other than carriage return, has no ]]> unless it has <![CDATA[ too, and in that case has no quote and no ampersand or one ampersand before every quote (C25_exact). All other texts are changed or make the output ill-formed (C25_*_violated)."
  },
  {
   "property": "C26",
   "status": "proved",
   "theorems": [
    "Kml.Dom.C26_ends",
    "Kml.Dom.C26_nested",
    "Kml.Dom.C26_tree",
    "Kml.Dom.C26_pretty_raw"
   ],
   "note": ""
  },
  {
   "property": "C27",
   "status": "proved",
   "theorems": [
    "Kml.Dom.C27_too_deep",
    "Kml.Dom.C27_not_refused"
   ],
   "note": "For every document, with or without old-style schemas."
  },
  {
   "property": "C28",
   "status": "partial",
   "theorems": [
    "Kml.Dom.C28_root_partial",
    "Kml.Dom.C28_uninitialised_violated",
    "Kml.Dom.C28_hang_violated",
    "Kml.Dom.C28_description_violated"
   ],
   "note": "Violated by undefined numbers in gx:coord (C28_uninitialised_violated), blank coordinates (C28_hang_violated) and description inside unknown elements (C28_description_violated). Proved (C28_root_partial) for all other documents without old-style schemas and with readable coordinates, tracks and colours, through a refinement of the handler to a recursive specification (Lemmas/Refine.lean run_root)."
  },
  {
   "property": "C29",
   "status": "partial",
   "theorems": [
    "Kml.Dom.C29_file_watches",
    "Kml.Dom.C29_told_partial",
    "Kml.Dom.C29_each_partial",
    "Kml.Dom.C29_veto_partial",
    "Kml.Dom.C29_together_partial",
    "Kml.Dom.C29_description_violated"
   ],
   "note": "Proved for all observers, for documents without old-style schemas and without description inside unknown elements (there it is false: C29_description_violated). An observer is also told of the attachment of a child that was vetoed."
  },
  {
   "property": "C30",
   "status": "partial",
   "theorems": [
    "Kml.Dom.C30_pretty_partial",
    "Kml.Dom.C30_raw_partial",
    "Kml.Dom.C30_snippet_violated",
    "Kml.Dom.C30_points_violated",
    "Kml.Dom.C30_locality_violated",
    "Kml.Dom.C30_text_violated"
   ],
   "note": "Proved for canonical elements: every child in the member that takes it, values as the library writes them, attributes of the class, correctly quoted texts, at most 100 deep. False otherwise: text in pretty output, several points in raw output, the name of xal:Locality, texts with ]]> (C30_*_violated)."
  },
  {
   "property": "C31",
   "status": "partial",
   "theorems": [
    "Kml.Dom.C31_kept_partial",
    "Kml.Dom.C31_kept_inside",
    "Kml.Dom.C31_written",
    "Kml.Dom.C31_each",
    "Kml.Dom.C31_reread_partial",
    "Kml.Dom.C31_stable",
    "Kml.Dom.C31_attribute",
    "Kml.Dom.C31_escape_violated",
    "Kml.Dom.C31_simple_violated"
   ],
   "note": "Proved: unknown elements are kept in order and written, and reread equal where nothing needs escaping. Violated: texts and attribute values with < or & are kept unescaped (C31_escape_violated), unknown children of simple elements are dropped (C31_simple_violated)."
  },
  {
   "property": "C32",
   "status": "partial",
   "theorems": [
    "Kml.Dom.C32_misplaced",
    "Kml.Dom.C32_kept_partial",
    "Kml.Dom.C32_duplicate_violated",
    "Kml.Dom.C32_enum_violated",
    "Kml.Dom.C32_snippet_violated",
    "Kml.Dom.C32_simple_violated"
   ],
   "note": "Misplaced children: proved in full (C32_misplaced). No child dropped: violated by duplicates of single-valued children, unknown enumeration names and children of text and simple elements; proved for all other children and all classes (C32_kept_partial)."
  },
  {
   "property": "C33",
   "status": "partial",
   "theorems": [
    "Kml.Dom.C33_order",
    "Kml.Dom.C33_swap",
    "Kml.Dom.C33_sequence",
    "Kml.Dom.C33_repeated",
    "Kml.Dom.C33_last_partial",
    "Kml.Dom.C33_blank_violated"
   ],
   "note": "Order independence, fixed order and repeated children proved in full for all classes; keeping the last single value proved except for blank numbers, where it is false (C33_blank_violated)."
  },
  {
   "property": "C34",
   "status": "partial",
   "theorems": [
    "Kml.Dom.C34_shape",
    "Kml.Dom.C34_written_partial",
    "Kml.Dom.C34_text",
    "Kml.Dom.C34_coordinates",
    "Kml.Dom.C34_attribute",
    "Kml.Dom.C34_locality_violated"
   ],
   "note": "Proved for all classes, members and attributes; violated by the name of xal:Locality only (C34_locality_violated), apart from enumeration names that are not understood."
  },
  {
   "property": "C35",
   "status": "partial",
   "theorems": [
    "Kml.Dom.C35_clone_partial",
    "Kml.Dom.C35_equal_partial",
    "Kml.Dom.C35_parsed_partial",
    "Kml.Dom.C35_simple_violated",
    "Kml.Dom.C35_simpledata_child_violated",
    "Kml.Dom.C35_simpledata_empty_violated",
    "Kml.Dom.C35_cdata_violated"
   ],
   "note": "Proved for every element the parser can give, and every element of that shape, that is not a simple element, has no SimpleData with an empty text or with a text and complex misplaced children, and no address beginning with a second CDATA mark; each exception is a proved violation. That the copy shares no element holds by construction in a value model (the calls that build it carry no elements)."
  },
  {
   "property": "C36",
   "status": "partial",
   "theorems": [
    "Kml.Dom.C36_merge_partial",
    "Kml.Dom.C36_overrides_partial",
    "Kml.Dom.C36_fields_partial",
    "Kml.Dom.C36_again_partial",
    "Kml.Dom.C36_twice_partial",
    "Kml.Dom.C36_misplaced_violated",
    "Kml.Dom.C36_snippet_violated",
    "Kml.Dom.C36_twice_violated"
   ],
   "note": "C36_merge_partial gives the whole result of MergeElements for every source and target as the parser leaves them that can be copied (C35) and have no complex element misplaced; C36_overrides_partial and C36_fields_partial state the property in words for MergeElements and MergeFields on elements without text; C36_again_partial and C36_twice_partial are the second merge. False in the code: the attributes and fields of a misplaced element of the source are set in the target (C36_misplaced_violated); the text of a Snippet is not merged (C36_snippet_violated); a field for many values is added to on each merge (C36_twice_violated)."
  },
  {
   "property": "C37",
   "status": "partial",
   "theorems": [
    "Kml.Dom.C37_last_partial",
    "Kml.Dom.C37_absent_partial",
    "Kml.Dom.C37_strict_partial",
    "Kml.Dom.C37_imported",
    "Kml.Dom.C37_refused",
    "Kml.Dom.C37_import_partial",
    "Kml.Dom.C37_misplaced_violated",
    "Kml.Dom.C37_told"
   ],
   "note": "C37_told: for every sequence of events, with respect to the elements the parser made. Lookup, absence and strict parsing proved for documents without old-style schemas and without description inside unknown elements; strict import refuses exactly duplicates among the objects found, and misplaced objects are not found (C37_misplaced_violated)."
  },
  {
   "property": "C38",
   "status": "partial",
   "theorems": [
    "Kml.Dom.C38_clear_partial",
    "Kml.Dom.C38_remap_partial",
    "Kml.Dom.C38_cleared_partial",
    "Kml.Dom.C38_renamed_partial",
    "Kml.Dom.C38_nothing_else",
    "Kml.Dom.C38_duplicates",
    "Kml.Dom.C38_map",
    "Kml.Dom.C38_output",
    "Kml.Dom.C38_count",
    "Kml.Dom.C38_duplicate_violated",
    "Kml.Dom.C38_misplaced_violated"
   ],
   "note": "Clearing and remapping reach only the last object found with each id and never misplaced objects (violations shown); with distinct ids and no misplaced complex element the property is proved as stated."
  },
  {
   "property": "C39",
   "status": "partial",
   "theorems": [
    "Kml.Dom.C39_exact_partial",
    "Kml.Dom.C39_every_partial",
    "Kml.Dom.C39_once",
    "Kml.Dom.C39_order_partial",
    "Kml.Dom.C39_types",
    "Kml.Dom.C39_parsed_partial",
    "Kml.Dom.C39_children_partial",
    "Kml.Dom.C39_misplaced_violated",
    "Kml.Dom.C39_grandchild_violated"
   ],
   "note": "Exact characterisation of what is found; misplaced complex elements are not found (violation shown), everything else is, once, in document order."
  },
  {
   "property": "C40",
   "status": "proved",
   "theorems": [
    "Kml.Dom.C40_visit",
    "Kml.Dom.C40_root"
   ],
   "note": "The hierarchy is that of features inside containers; features inside Update elements or misplaced ones are not part of it."
  },
  {
   "property": "C41",
   "status": "proved",
   "theorems": [
    "Kml.Geo.C41_smallest_around",
    "Kml.Geo.C41_contains",
    "Kml.Geo.C41_api",
    "Kml.Geo.C41_order",
    "Kml.Geo.C41_smallest",
    "Kml.Geo.C41_default_empty",
    "Kml.Geo.C41_empty_box_violated",
    "Kml.Geo.C41_range_violated"
   ],
   "note": "The restrictions are necessary: expanding by an empty (default) box spoils a box (C41_empty_box_violated) and positions beyond 180 are not covered by the default start box (C41_range_violated)."
  },
  {
   "property": "C42",
   "status": "partial",
   "theorems": [
    "Kml.Geo.C42_align_partial",
    "Kml.Geo.C42_always_cell",
    "Kml.Geo.C42_cells_within",
    "Kml.Geo.C42_world",
    "Kml.Geo.C42_depth_violated"
   ],
   "note": "Violated: the result can be one level deeper than asked (C42_depth_violated). Proved: the result is a cell that contains the box, and when no child contains it the descent stops."
  },
  {
   "property": "C43",
   "status": "partial",
   "theorems": [
    "Kml.Geo.C43_covers_partial",
    "Kml.Geo.C43_smallest_partial",
    "Kml.Geo.C43_exact",
    "Kml.Geo.C43_latlon",
    "Kml.Geo.C43_monotone",
    "Kml.Geo.C43_track_violated",
    "Kml.Geo.C43_inner_violated",
    "Kml.Geo.C43_placemark",
    "Kml.Geo.C43_first",
    "Kml.Geo.C43_agree",
    "Kml.Geo.C43_points_violated"
   ],
   "note": "Violated: gx:Track and inner boundaries of polygons are ignored (C43_track_violated, C43_inner_violated). Proved for the other geometries, with minimality; C43_exact says that nothing else is ignored and C43_latlon where the single position is. GetGeometryLatLon, GetPlacemarkLatLon, GetPointLatLon and GetModelLatLon: C43_placemark, C43_first, and C43_agree for one position; of a point with several positions they differ (C43_points_violated)."
  },
  {
   "property": "C44",
   "status": "partial",
   "theorems": [
    "Kml.Uri.C44_never_throws",
    "Kml.Uri.C44_relative",
    "Kml.Uri.C44_relative_kind",
    "Kml.Uri.C44_absolute_partial",
    "Kml.Uri.C44_fragment_violated",
    "Kml.Uri.C44_host_violated",
    "Kml.Uri.C44_fragment",
    "Kml.Uri.C44_host"
   ],
   "note": "Violated for absolute URLs with a fragment (the path keeps it; C44_fragment says how much of it) and for hosts without a following slash (C44_host: always). Proved: never throws, every relative URL, absolute URLs without fragment."
  },
  {
   "property": "C45",
   "status": "partial",
   "theorems": [
    "Kml.Uri.C45_never_throws",
    "Kml.Uri.C45_refused",
    "Kml.Uri.C45_split",
    "Kml.Uri.C45_recombine_partial",
    "Kml.Uri.C45_violated"
   ],
   "note": "Violated when .kmz is not the end of a path segment (my.kmz.kml). Proved: never throws, what is refused, where the cut is, recombination otherwise."
  },
  {
   "property": "C46",
   "status": "partial",
   "theorems": [
    "Kml.Kmz.C46_terminates_partial",
    "Kml.Kmz.C46_kml_terminates_partial",
    "Kml.Kmz.C46_settles_partial",
    "Kml.Kmz.C46_diverges",
    "Kml.Kmz.C46_violated",
    "Kml.Kmz.C46_inside",
    "Kml.Kmz.C46_default",
    "Kml.Kmz.C46_beside",
    "Kml.Kmz.C46_plain",
    "Kml.Kmz.C46_address",
    "Kml.Rfc.C46_rfc_terminates_partial",
    "Kml.Rfc.C46_rfc_kml_terminates_partial",
    "Kml.Rfc.C46_rfc_violated",
    "Kml.Rfc.C46_host_violated",
    "Kml.Rfc.C46_empty_diverges",
    "Kml.Rfc.C46_fragment_violated"
   ],
   "note": "Violated: asking for a missing file of an archive by absolute URL recurses without end (C46_violated, C46_diverges, C46_rfc_violated), and so do a file on a host whose name has .kmz in it (C46_host_violated) and a fragment in an archive without KML (C46_fragment_violated). Proved for relative targets, with what is fetched: with uriparser a parameter (C46_terminates_partial) and with URIs as RFC 3986 has them, for all bases with a host that has no .kmz (C46_rfc_terminates_partial)."
  },
  {
   "property": "C47",
   "status": "proved",
   "theorems": [
    "Kml.Kmz.C47_adds_each_once",
    "Kml.Kmz.C47_inside"
   ],
   "note": "NormalizeHref (uriparser) and the disk are parameters; C47_inside assumes that normalised names have no later '..'."
  },
  {
   "property": "C48",
   "status": "proved",
   "theorems": [
    "Kml.Dom.C48_ends",
    "Kml.Dom.C48_safe"
   ],
   "note": "For every shared style map, cache content, limit, URL and inline style. int counters unbounded; what the cache gives for a URL does not change during one resolution. C48_safe adds absence of undefined behaviour for styles that can be merged."
  },
  {
   "property": "C49",
   "status": "partial",
   "theorems": [
    "Kml.Dom.C49_all_partial",
    "Kml.Dom.C49_chain_partial",
    "Kml.Dom.C49_siblings_violated",
    "Kml.Dom.C49_inline_violated"
   ],
   "note": "False as stated: the budget is spent by every pair and feature looked at, also ones next to each other or without a reference (C49_siblings_violated, C49_inline_violated). Proved: everything is merged when the last useful reference is among the first `limit` looked at; in particular every plain chain within the limit."
  },
  {
   "property": "C50",
   "status": "partial",
   "theorems": [
    "Kml.Dom.C50_partial",
    "Kml.Dom.C50_ids_partial",
    "Kml.Dom.C50_id_violated",
    "Kml.Dom.C50_after_violated",
    "Kml.Dom.C50_unknown_violated"
   ],
   "note": "False as stated for a style with its own id (lost, C50_id_violated), a styleUrl after the inline style (C50_after_violated) and unknown elements in the style (dropped, C50_unknown_violated). Proved: otherwise the result is what the document with references #_k in place of the inline styles stands for, and the k-th added style is the k-th one taken out, under the id _k; the ids are distinct. Documents with an old-style Schema are outside the statement."
  },
  {
   "property": "C51",
   "status": "partial",
   "theorems": [
    "Kml.Dom.C51_resolver",
    "Kml.Dom.C51_resolved",
    "Kml.Dom.C51_partial",
    "Kml.Dom.C51_refs_partial",
    "Kml.Dom.C51_styles_partial",
    "Kml.Dom.C51_documents_partial",
    "Kml.Dom.C51_after_violated",
    "Kml.Dom.C51_inline_violated",
    "Kml.Dom.C51_pair_violated"
   ],
   "note": "False as stated when a shared style comes after a reference to it (style gone, reference stays: C51_after_violated), when a feature has an inline style besides its styleUrl (lost: C51_inline_violated), and for references in the pairs of an inline StyleMap (C51_pair_violated). Proved for documents whose shared styles come before the references and whose features have a styleUrl followed by no further styling: the result is the parsed document with each resolvable local reference of a feature outside Update replaced by the resolved style map; no such reference remains; no document outside Update keeps a style with an id; the resolver always ends and gives a StyleMap of the normal and the highlight style."
  },
  {
   "property": "C52",
   "status": "partial",
   "theorems": [
    "Kml.Dom.C52_order",
    "Kml.Dom.C52_unknown",
    "Kml.Dom.C52_unknown_all",
    "Kml.Dom.C52_change_partial",
    "Kml.Dom.C52_create_partial",
    "Kml.Dom.C52_delete_partial",
    "Kml.Dom.C52_others_partial",
    "Kml.Dom.C52_history_partial",
    "Kml.Dom.C52_opened_partial",
    "Kml.Dom.C52_duplicate_violated",
    "Kml.Dom.C52_freed_violated"
   ],
   "note": "Order and unknown targets are proved for every file and update (C52_order, C52_unknown, C52_unknown_all). What a Change, Create and Delete do to their target, and that nothing else changes, is proved for files whose ids are in order (Sound): a strict import gives one (C52_opened_partial) and fit updates keep it so (C52_history_partial). Fit: sources that can be copied (C35), Change sources of the target's type without ids inside. With duplicate ids it is false: C52_duplicate_violated (the first feature with the id is deleted, not the one the id refers to), C52_freed_violated (a freed parent is used)."
  },
  {
   "property": "C53",
   "status": "partial",
   "theorems": [
    "Kml.Dom.C53_found",
    "Kml.Dom.C53_changed_partial",
    "Kml.Dom.C53_deleted_violated",
    "Kml.Dom.C53_created_violated",
    "Kml.Dom.C53_renamed_violated"
   ],
   "note": "Proved: the ids found are exactly those found before (C53_found), and a changed object is found under its id (C53_changed_partial). So deletions and creations are not reflected: C53_deleted_violated, C53_created_violated, C53_renamed_violated."
  },
  {
   "property": "C54",
   "status": "partial",
   "theorems": [
    "Kml.Dom.C54_entities",
    "Kml.Dom.C54_schema",
    "Kml.Dom.C54_table_partial",
    "Kml.Dom.C54_no_table",
    "Kml.Dom.C54_leak_violated",
    "Kml.Dom.C54_unlisted_violated",
    "Kml.Dom.C54_reused_violated"
   ],
   "note": "The entity map is proved exactly for every feature (C54_entities). The table of names and values is proved for a new mapper when the SchemaData are in order (C54_table_partial); the labels of one schema leak to the data of later SchemaData without one (C54_leak_violated), to later features (C54_reused_violated), and data its schema does not list gets an empty label (C54_unlisted_violated)."
  },
  {
   "property": "C55",
   "status": "partial",
   "theorems": [
    "Kml.Dom.C55_which_partial",
    "Kml.Dom.C55_exists_partial",
    "Kml.Dom.C55_unnamed_violated",
    "Kml.Dom.C55_imported_partial",
    "Kml.Dom.C55_import_partial",
    "Kml.Dom.C55_hidden_violated",
    "Kml.Dom.C55_told"
   ],
   "note": "C55_told: for every sequence of events, with respect to what the parser gave to a Document. Proved for every id but the empty one, under which styles without an id are kept (C55_unnamed_violated); for imports proved for distinct ids (C55_hidden_violated otherwise)."
  },
  {
   "property": "C56",
   "status": "partial",
   "theorems": [
    "Kml.Dom.C56_links_partial",
    "Kml.Dom.C56_parses_partial",
    "Kml.Dom.C56_told",
    "Kml.Dom.C56_description_violated",
    "Kml.Dom.C56_field_violated"
   ],
   "note": "C56_told: for every sequence of events, with respect to the elements the parser gave to their parents. With respect to the text of the document it is proved for documents without old-style schema and without description inside an unknown element; with them it is false (C56_description_violated, C56_field_violated)."
  },
  {
   "property": "C57",
   "status": "proved",
   "theorems": [
    "Kml.Geo.C57_unique",
    "Kml.Geo.C57_depth",
    "Kml.Geo.C57_ancestor"
   ],
   "note": ""
  },
  {
   "property": "C58",
   "status": "proved",
   "theorems": [
    "Kml.Geo.C58_inside",
    "Kml.Geo.C58_cover",
    "Kml.Geo.C58_overlap",
    "Kml.Geo.C58_corners",
    "Kml.Geo.C58_inherits"
   ],
   "note": ""
  },
  {
   "property": "C59",
   "status": "partial",
   "theorems": [
    "Kml.Geo.C59_names_distinct",
    "Kml.Geo.C59_file_names",
    "Kml.Geo.C59_links_saved",
    "Kml.Geo.C59_tree_partial",
    "Kml.Geo.C59_deterministic",
    "Kml.Geo.C59_orphan_violated",
    "Kml.Geo.C59_root_name_violated"
   ],
   "note": "Violated when the handler gives no feature for a region with data, whose children are then orphans, and when the root file name is a number name. Proved: names are distinct, links name saved files, and the files form a tree if the handler always gives a feature."
  },
  {
   "property": "C60",
   "status": "proved",
   "theorems": [
    "Kml.Geo.C60_split",
    "Kml.Geo.C60_split_all",
    "Kml.Geo.C60_conserves",
    "Kml.Geo.C60_score",
    "Kml.Geo.C60_set_score",
    "Kml.Geo.C60_sort",
    "Kml.Geo.C60_save",
    "Kml.Geo.C60_save_attached_violated",
    "Kml.Geo.C60_bounding_box"
   ],
   "note": "The restriction on saving is necessary (C60_save_attached_violated)."
  },
  {
   "property": "C61",
   "status": "proved",
   "theorems": [
    "Kml.Geo.C61_complete",
    "Kml.Geo.C61_no_box"
   ],
   "note": ""
  },
  {
   "property": "C62",
   "status": "partial",
   "theorems": [
    "Kml.Dom.C62_calls",
    "Kml.Dom.C62_numbers_partial",
    "Kml.Dom.C62_number_violated",
    "Kml.Dom.C62_numeric_violated"
   ],
   "note": "The calls of the handler are proved exactly for all data and handlers (C62_calls), with what an accepted placemark shows. Line numbers are right when there are no blank lines (C62_numbers_partial): blank lines are skipped without being counted (C62_number_violated). Numeric means beginning with a number without plus sign: '1 mile' is accepted and '+1' is not (C62_numeric_violated). The parser calls CreatePlacemark through a null factory pointer; the model takes that call to work."
  },
  {
   "property": "C63",
   "status": "partial",
   "theorems": [
    "Kml.Dom.C63_points_partial",
    "Kml.Dom.C63_stale_violated",
    "Kml.Dom.C63_blank_violated"
   ],
   "note": "Proved for every document whose times and elevations hold only text, with no blank number, no nested track point and no track point without position after one with a position (C63_points_partial). Otherwise a track point without position is reported with the position of an earlier one (C63_stale_violated), and a blank number is used uninitialised (C63_blank_violated)."
  },
  {
   "property": "C64",
   "status": "partial",
   "theorems": [
    "Kml.Dom.C64_add_partial",
    "Kml.Dom.C64_add_violated",
    "Kml.Dom.C64_add_others",
    "Kml.Dom.C64_set",
    "Kml.Dom.C64_set_violated",
    "Kml.Dom.C64_score",
    "Kml.Dom.C64_first",
    "Kml.Dom.C64_no_score"
   ],
   "note": "Setting and scores read back for every feature (C64_set, C64_score), adding reads back if the name had no value (C64_add_partial) and leaves all else (C64_add_others). Adding under a name that has a value leaves the old value in sight (C64_add_violated); setting removes all other names (C64_set_violated)."
  },
  {
   "property": "C65",
   "status": "partial",
   "theorems": [
    "Kml.Dom.C65_rule_partial",
    "Kml.Dom.C65_subsequence",
    "Kml.Dom.C65_all",
    "Kml.Dom.C65_apart_violated",
    "Kml.Dom.C65_creep_violated"
   ],
   "note": "First point, subsequence and non-positive tolerance are proved for all lists, with distances in any linear order with zero where distances are not negative. A point is kept when it is far from the point before it in the input (C65_rule_partial), not from the last kept one (C65_apart_violated, C65_creep_violated)."
  },
  {
   "property": "C66",
   "status": "partial",
   "theorems": [
    "Kml.XsdDoc.C66_chain",
    "Kml.XsdDoc.C66_terminates_partial",
    "Kml.XsdDoc.C66_no_schema",
    "Kml.XsdDoc.C66_search_partial",
    "Kml.XsdDoc.C66_cycle_violated",
    "Kml.XsdDoc.C66_elements_partial"
   ],
   "note": "Proved for all acyclic hierarchies, with termination exactly characterised; a cyclic schema file makes the walk loop forever (C66_cycle_violated)."
  },
  {
   "property": "C67",
   "status": "proved",
   "theorems": [
    "Kml.XsdDoc.C67_groups"
   ],
   "note": ""
  },
  {
   "property": "C68",
   "status": "partial",
   "theorems": [
    "Kml.XsdDoc.C68_safe_iff_partial",
    "Kml.XsdDoc.C68_records",
    "Kml.XsdDoc.C68_all_found",
    "Kml.XsdDoc.C68_anonymous_violated",
    "Kml.XsdDoc.C68_nested_violated",
    "Kml.XsdDoc.C68_root_violated",
    "Kml.XsdDoc.C68_namespace",
    "Kml.XsdDoc.C68_namespace_violated"
   ],
   "note": "Safety exactly characterised and the recorded contents proved; anonymous or nested types and a declaring root element crash (C68_*_violated). The target namespace is that of the last <schema> (C68_namespace); asking for it when there is none, or no prefix for it, reads through NULL (C68_namespace_violated)."
  },
  {
   "property": "C69",
   "status": "partial",
   "theorems": [
    "Kml.XsdDoc.C69_split",
    "Kml.XsdDoc.C69_types",
    "Kml.XsdDoc.C69_range",
    "Kml.XsdDoc.C69_standard_partial",
    "Kml.XsdDoc.C69_qname_violated",
    "Kml.XsdDoc.C69_invalid_violated"
   ],
   "note": "C69_split for all names; C69_types and C69_range for all ids; C69_standard_partial for all names but QName. Violated: QName of the standard is QNAME here (C69_qname_violated), and asking for the name of the invalid id constructs a string from NULL (C69_invalid_violated)."
  },
  {
   "property": "C70",
   "status": "partial",
   "theorems": [
    "Kml.Dom.C70_modern_partial",
    "Kml.Dom.C70_parses_partial",
    "Kml.Dom.C70_crash_violated",
    "Kml.Dom.C70_field_violated",
    "Kml.Dom.C70_leak_violated",
    "Kml.Dom.C70_schema_violated"
   ],
   "note": "Proved for documents in which N is no KML name, the first old-style schema is the only one, fields hold text only and stand inside an <N>. Fails otherwise: crashes (C70_crash_violated, C70_field_violated), fields outside an <N> leak to the next one (C70_leak_violated), later schemas get the old id (C70_schema_violated)."
  },
  {
   "property": "C71",
   "status": "proved",
   "theorems": [
    "Kml.Attributes.C71_translate",
    "Kml.Attributes.C71_namespaces"
   ],
   "note": ""
  },
  {
   "property": "C72",
   "status": "partial",
   "theorems": [
    "Kml.ZipFile.C72_read_back_partial",
    "Kml.ZipFile.C72_absent",
    "Kml.ZipFile.C72_find_first",
    "Kml.ZipFile.C72_empty_violated",
    "Kml.ZipFile.C72_long_name_violated",
    "Kml.ZipFile.C72_case_violated"
   ],
   "note": "Violated: an empty entry and one with a name of 256 characters or more cannot be read back; where the unzip library ignores case, another entry is read. Proved for the rest."
  },
  {
   "property": "C73",
   "status": "proved",
   "theorems": [
    "Kml.XsdDoc.C73_children",
    "Kml.XsdDoc.C73_no_children",
    "Kml.XsdDoc.C73_alias",
    "Kml.XsdDoc.C73_xst",
    "Kml.XsdDoc.C73_none"
   ],
   "note": ""
  },
  {
   "property": "C74",
   "status": "proved",
   "theorems": [
    "Kml.Dom.C74_parents_partial",
    "Kml.Dom.C74_told"
   ],
   "note": "C74_told: for every sequence of events, with respect to the elements the parser made (start tags and old-style schema elements alike). C74_parents_partial ties it to the start tags of the document, for documents without old-style schemas and without description inside unknown elements."
  },
  {
   "property": "C75",
   "status": "partial",
   "theorems": [
    "Kml.Dom.C75_ends",
    "Kml.Dom.C75_style",
    "Kml.Dom.C75_default_partial",
    "Kml.Dom.C75_table_violated"
   ],
   "note": "Always computed, and exactly what the style says. The default balloon has the table even when there is a description, against the comment in the code, and the second cell of each row is not closed (C75_table_violated); C75_default_partial gives what it is."
  },
  {
   "property": "C76",
   "status": "proved",
   "theorems": [
    "Kml.Dom.C76_line",
    "Kml.Dom.C76_file"
   ],
   "note": "Score, name, description, style and position of the placemark of every line, and which lines of a file are read. A latitude or longitude that does not begin with a number is taken as 0."
  },
  {
   "property": "C77",
   "status": "partial",
   "theorems": [
    "Kml.Dom.C77_pretty_partial",
    "Kml.Dom.C77_raw_partial",
    "Kml.Dom.C77_snippet_violated",
    "Kml.Dom.C77_escape_violated",
    "Kml.Dom.C77_attribute_violated",
    "Kml.Dom.C77_icon_violated"
   ],
   "note": "Proved for every document without old-style schemas whose texts have no CDATA marks and whose attribute values and unknown content need no escapes (Spec/Faithful.lean); raw output with at most one point per coordinates, pretty output without Snippet, linkSnippet and SimpleData. False otherwise: C77_*_violated."
  },
  {
   "property": "C78",
   "status": "partial",
   "theorems": [
    "Kml.Dom.C78_tables",
    "Kml.Dom.C78_hotspot_violated",
    "Kml.Dom.C78_foreign_violated",
    "Kml.Dom.C78_misplaced_violated",
    "Kml.Dom.C78_method_partial",
    "Kml.Dom.C78_visited_partial",
    "Kml.Dom.C78_every_partial",
    "Kml.Dom.C78_once",
    "Kml.Dom.C78_preorder",
    "Kml.Dom.C78_postorder",
    "Kml.Dom.C78_kind_partial"
   ],
   "note": "Which elements are visited is proved exactly; false for misplaced, Atom and xAL elements and for the method of hotSpot: C78_*_violated. Methods, order and uniqueness are proved for every tree and every set of overrides. Visitors are taken to leave the tree as it is."
  },
  {
   "property": "C79",
   "status": "partial",
   "theorems": [
    "Kml.Dom.C79_field_violated",
    "Kml.Dom.C79_misplaced_violated",
    "Kml.Dom.C79_root_violated",
    "Kml.Dom.C79_declared_partial",
    "Kml.Dom.C79_default_partial",
    "Kml.Dom.C79_kept",
    "Kml.Dom.C79_saved_partial",
    "Kml.Dom.C79_stream"
   ],
   "note": "False for simple gx elements of KML elements, for misplaced elements with a prefix and for seven types as root: C79_*_violated. A declaration of the user for one of the standard prefixes, or of the default namespace, is overwritten."
  },
  {
   "property": "C80",
   "status": "partial",
   "theorems": [
    "Kml.Dom.C80_relative",
    "Kml.Dom.C80_unread",
    "Kml.Dom.C80_failure",
    "Kml.Dom.C80_missing_partial",
    "Kml.Dom.C80_unreadable",
    "Kml.Dom.C80_fragment_violated",
    "Kml.Dom.C80_empty_violated"
   ],
   "note": "False for links that are only a fragment, which KmzCheckLinks reports, and for empty files: C80_*_violated. Links that begin with :// and archives with very long names or files over the limit are left out."
  },
  {
   "property": "C81",
   "status": "partial",
   "theorems": [
    "Kml.Dom.C81_entry",
    "Kml.Dom.C81_map_partial",
    "Kml.Dom.C81_map_null",
    "Kml.Dom.C81_pages_partial",
    "Kml.Dom.C81_pages_null",
    "Kml.Dom.C81_endless_violated",
    "Kml.Dom.C81_feed",
    "Kml.Dom.C81_address",
    "Kml.Dom.C81_link",
    "Kml.Dom.C81_category",
    "Kml.Dom.C81_title",
    "Kml.Dom.C81_resource",
    "Kml.Dom.C81_source"
   ],
   "note": "Features that cannot be cloned are left out (C35). Building a document never ends for pages in a circle: C81_endless_violated. GetFeedFeatures moves the features instead of copying them, so that a second call adds nothing; parents are not in this model (C18)."
  },
  {
   "property": "C82",
   "status": "partial",
   "theorems": [
    "Kml.Dom.C82_watches",
    "Kml.Dom.C82_count",
    "Kml.Dom.C82_document_partial",
    "Kml.Dom.C82_balanced",
    "Kml.Dom.C82_stats_partial",
    "Kml.Dom.C82_colour_violated",
    "Kml.Dom.C82_misplaced_violated"
   ],
   "note": "Colours are not counted as fields (C82_colour_violated) and complex elements out of place are not counted as elements (C82_misplaced_violated). The document form leaves out old-style schemas; C82_count has no such condition. The group count is not modelled."
  },
  {
   "property": "C83",
   "status": "partial",
   "theorems": [
    "Kml.Dom.C83_convert",
    "Kml.Dom.C83_parse",
    "Kml.Dom.C83_added",
    "Kml.Dom.C83_other",
    "Kml.Dom.C83_schemas",
    "Kml.Dom.C83_attribute_violated",
    "Kml.Dom.C83_nested_violated",
    "Kml.Dom.C83_whole",
    "Kml.Dom.C83_goes_well",
    "Kml.Dom.C83_root_violated"
   ],
   "note": "Instances with attributes are not converted (C83_attribute_violated); those with an inner element of the same name are cut short (C83_nested_violated); those in a container that is the root are not converted (C83_root_violated). C83_whole is about a whole parse with the observer, compared with the parse without it."
  },
  {
   "property": "C84",
   "status": "partial",
   "theorems": [
    "Kml.Http.C84_find",
    "Kml.Http.C84_append",
    "Kml.Http.C84_login",
    "Kml.Http.C84_token_partial",
    "Kml.Http.C84_lines_violated",
    "Kml.Http.C84_cut_violated",
    "Kml.Http.C84_form_partial",
    "Kml.Http.C84_form_violated",
    "Kml.Http.C84_history",
    "Kml.Http.C84_again_violated",
    "Kml.Http.C84_request",
    "Kml.Http.C84_lines_partial",
    "Kml.Http.C84_feed_violated",
    "Kml.Http.C84_method_violated",
    "Kml.Dom.C84_fetch"
   ],
   "note": "The token takes in following lines or loses its last character (C84_lines_violated, C84_cut_violated); texts with & or line feeds are not escaped (C84_form_violated, C84_feed_violated); a second login leaves the first Authorization header in front (C84_again_violated); a request with HTTP_NONE is undefined behaviour (C84_method_violated)."
  },
  {
   "property": "C85",
   "status": "partial",
   "theorems": [
    "Kml.Dom.C85_text",
    "Kml.Dom.C85_stream",
    "Kml.Dom.C85_string",
    "Kml.Dom.C85_rejected",
    "Kml.Dom.C85_failing_violated",
    "Kml.Dom.C85_unreadable_violated"
   ],
   "note": "Proved for every text and every XML parser whose events do not depend on the pieces but for the cutting of text (C85_stream, C85_text, C85_rejected). Violated for streams that fail: a read error is not reported and what was read so far is given out as the document (C85_failing_violated); a stream that is not good at the start gives an object without a root (C85_unreadable_violated)."
  },
  {
   "property": "C86",
   "status": "partial",
   "theorems": [
    "Kml.Dom.C86_atom_partial",
    "Kml.Dom.C86_local_partial",
    "Kml.Dom.C86_kml_partial",
    "Kml.Dom.C86_atom_violated",
    "Kml.Dom.C86_foreign_violated",
    "Kml.Dom.C86_author_violated"
   ],
   "note": "Proved for ParseAtom wherever parsing gives an element (C86_atom_partial), and for ParseNS on documents of KML elements only (C86_kml_partial). Where parsing stops, as at an unknown root, ParseAtom uses a pointer that was never written (C86_atom_violated). ParseNS goes by local names alone (C86_local_partial): it takes elements of other namespaces for KML (C86_foreign_violated) and does not know Atom elements (C86_author_violated)."
  },
  {
   "property": "C87",
   "status": "partial",
   "theorems": [
    "Kml.Dom.C87_saved_partial",
    "Kml.Dom.C87_update_violated",
    "Kml.Dom.C87_short_violated",
    "Kml.Dom.C87_root_violated",
    "Kml.Dom.C87_rebase_partial"
   ],
   "note": "Proved for documents without old-style Schema and with a root that is not a description: what is left, what is taken, and in which order (C87_saved_partial); what happens to references (C87_rebase_partial). Violated: features inside an Update are taken (C87_update_violated); '#a', a reference to an id of one character, does not get the base (C87_short_violated); a feature that is the root is not taken (C87_root_violated)."
  },
  {
   "property": "C88",
   "status": "partial",
   "theorems": [
    "Kml.Geo.C88_complete",
    "Kml.Geo.C88_off_map",
    "Kml.Geo.C88_any_monitor",
    "Kml.Geo.C88_stop_violated"
   ],
   "note": "Proved for monitors that never stop (C88_complete) and for features off the map (C88_off_map); for any monitor regionation completes and writes nothing twice (C88_any_monitor). Violated when the monitor says stop: it goes on with the other regions, asks the monitor again, and the features taken in the meantime are in no file (C88_stop_violated)."
  },
  {
   "property": "C89",
   "status": "proved",
   "theorems": [
    "Kml.Sphere.C89_distance",
    "Kml.Sphere.C89_metric",
    "Kml.Sphere.C89_azimuth",
    "Kml.Sphere.C89_radial",
    "Kml.Sphere.C89_inverse",
    "Kml.Sphere.C89_longitude",
    "Kml.Sphere.C89_slopes"
   ],
   "note": "Over the real numbers: rounding of doubles is outside the model. Directions are meant from places other than the poles and between places that are not the same or opposite."
  },
  {
   "property": "C90",
   "status": "partial",
   "theorems": [
    "Kml.Sphere.C90_box_partial",
    "Kml.Sphere.C90_feature_partial",
    "Kml.Sphere.C90_corner_violated"
   ],
   "note": "Proved for the center, the minimum and what is due north, south, east or west of the center (C90_box_partial, C90_feature_partial). Violated in the corners: of the box from the equator to the pole, 180 degrees wide, the southern corners are not in view (C90_corner_violated)."
  },
  {
   "property": "C91",
   "status": "partial",
   "theorems": [
    "Kml.Dom.C91_namespace_violated",
    "Kml.Dom.C91_add",
    "Kml.Dom.C91_ids_violated",
    "Kml.Dom.C91_arrives_partial",
    "Kml.Dom.C91_declared_partial",
    "Kml.Dom.C91_posts_partial",
    "Kml.Dom.C91_single_partial"
   ],
   "note": "Proved if no two objects below the feature have the same id (C91_add, C91_posts_partial, C91_single_partial), for canonical features (C91_arrives_partial) and, for the namespaces, if a KML element is found below the feature (C91_declared_partial). Violated otherwise: with equal ids a NULL pointer is used (C91_ids_violated), and the Placemark of an empty placemark or one with just a gx:Track is in no namespace (C91_namespace_violated)."
  },
  {
   "property": "C92",
   "status": "partial",
   "theorems": [
    "Kml.Dom.C92_services",
    "Kml.Dom.C92_variables",
    "Kml.Dom.C92_features",
    "Kml.Dom.C92_create",
    "Kml.Dom.C92_search",
    "Kml.Dom.C92_query_violated",
    "Kml.Dom.C92_box",
    "Kml.Dom.C92_append_partial",
    "Kml.Dom.C92_append_violated",
    "Kml.Dom.C92_kml_partial",
    "Kml.Dom.C92_kml_violated",
    "Kml.Dom.C92_new_map_partial",
    "Kml.Dom.C92_uploads",
    "Kml.Dom.C92_download"
   ],
   "note": "Violated: AppendBboxParameter writes no & after other parameters (C92_append_violated), GetKmlUri gives no parameter for an address without a query (C92_kml_violated), and a slash in the query of the feature feed is taken for one of its path (C92_query_violated)."
  },
  {
   "property": "C93",
   "status": "partial",
   "theorems": [
    "Kml.Dom.C93_data",
    "Kml.Dom.C93_kml_partial",
    "Kml.Dom.C93_again_direct",
    "Kml.Dom.C93_again_partial",
    "Kml.Dom.C93_again_violated",
    "Kml.Dom.C93_beside_violated",
    "Kml.Dom.C93_image_violated",
    "Kml.Dom.C93_name_violated",
    "Kml.Dom.C93_link",
    "Kml.Dom.C93_icon",
    "Kml.Dom.C93_absolute"
   ],
   "note": "Proved for data (C93_data, C93_icon) and for KML files unless an archive is found beside an archive (C93_kml_partial, C93_again_partial). Violated there: the file gets the URL of the archive without the name of the file in it (C93_beside_violated), so that the images in the archive are not found (C93_image_violated). A file fetched by the URL of its archive is parsed again every time (C93_again_violated)."
  },
  {
   "property": "C94",
   "status": "proved",
   "theorems": [
    "Kml.Fields.C94_fields",
    "Kml.Fields.C94_defaults"
   ],
   "note": "The table of accessors and members was read off the headers; the theorem is for all sequences of calls. Arrays of children (add_, delete_) are not in this table, nor is ItemIcon's state. The schema's default for open is 1 in KML 2.1, 0 in 2.2; the code has 0."
  },
  {
   "property": "C95",
   "status": "partial",
   "theorems": [
    "Kml.DateTime.C95_read_partial",
    "Kml.DateTime.C95_ranges",
    "Kml.DateTime.C95_safe",
    "Kml.DateTime.C95_write_partial",
    "Kml.DateTime.C95_round_partial",
    "Kml.DateTime.C95_time_partial",
    "Kml.DateTime.C95_order_partial",
    "Kml.DateTime.C95_again",
    "Kml.DateTime.C95_calendar_violated",
    "Kml.DateTime.C95_lax_violated",
    "Kml.DateTime.C95_forms_violated",
    "Kml.DateTime.C95_failure_violated",
    "Kml.DateTime.C95_year_violated"
   ],
   "note": "Proved for texts of the form 2008-10-03T09:25:42Z (C95_read_partial), whatever was read for the ranges and the buffers (C95_ranges, C95_safe), writing and the round trip from the year 1000 on, time and order from 1970 on. Violated: 31 February and trailing text are read (C95_calendar_violated, C95_lax_violated), fractions and zones are not (C95_forms_violated), ToTimeT cannot tell failure (C95_failure_violated), years before 1000 are written without zeros by the GNU C library (C95_year_violated). strptime and strftime are modelled as in the GNU C library. Whatever was read, of any year, is read again from its text (C95_again)."
  },
  {
   "property": "C96",
   "status": "partial",
   "theorems": [
    "Kml.Dom.C96_text",
    "Kml.Dom.C96_round_partial",
    "Kml.Dom.C96_files",
    "Kml.Dom.C96_read_file",
    "Kml.Dom.C96_refused",
    "Kml.Dom.C96_filepath_partial",
    "Kml.Dom.C96_null_violated",
    "Kml.Dom.C96_missing_violated",
    "Kml.Dom.C96_nothing_violated",
    "Kml.Dom.C96_doc_violated"
   ],
   "note": "C96_text for every text; C96_files for every element and parser; C96_read_file, C96_refused; C96_round_partial and C96_filepath_partial for canonical elements (as C30). Violated: a file that is not KML makes CreateFromKmlFilepath follow a NULL pointer (C96_null_violated), success is reported although a linked file is missing (C96_missing_violated) or for no element (C96_nothing_violated), and a link to a file doc.kml gives two entries of that name (C96_doc_violated)."
  },
  {
   "property": "C97",
   "status": "partial",
   "theorems": [
    "Kml.Dom.C97_casts_partial",
    "Kml.Dom.C97_array_partial",
    "Kml.Dom.C97_array_violated"
   ],
   "note": "C97_casts_partial for every cast but one and every element; C97_array_partial for the other one on every element that is not a SimpleField. Violated: GxSimpleArrayField has no ElementType of its own and inherits SimpleField's, so AsGxSimpleArrayField casts a SimpleField to a class it is not of (C97_array_violated)."
  },
  {
   "property": "C98",
   "status": "partial",
   "theorems": [
    "Kml.XmlChar.C98_narrow",
    "Kml.XmlChar.C98_wide_partial",
    "Kml.XmlChar.C98_attributes",
    "Kml.XmlChar.C98_behind",
    "Kml.XmlChar.C98_odd",
    "Kml.XmlChar.C98_astral_violated"
   ],
   "note": "C98_narrow, C98_attributes, C98_behind (exactly when memory behind the text is read) and C98_odd in full; C98_wide_partial for every text of characters of the first plane. Violated: of a surrogate pair the first half is dropped and the second is not, which gives bytes that are not UTF-8 (C98_astral_violated). UTF-8 is that of Lean's library."
  },
  {
   "property": "C99",
   "status": "partial",
   "theorems": [
    "Kml.UriFile.C99_safe",
    "Kml.UriFile.C99_unix_partial",
    "Kml.UriFile.C99_windows_partial",
    "Kml.UriFile.C99_any",
    "Kml.UriFile.C99_backslash_violated",
    "Kml.UriFile.C99_drive_violated",
    "Kml.UriFile.C99_zero_violated",
    "Kml.UriFile.C99_scheme_violated",
    "Kml.UriFile.C99_size_violated"
   ],
   "note": "C99_safe for every text up to 700 million bytes; C99_unix_partial for every name without backslashes, C99_windows_partial for every name without slashes whose drive has no percent sign. Violated: backslashes on Unix (C99_backslash_violated), percent signs in a drive (C99_drive_violated), escaped zeros (C99_zero_violated), URIs of no file (C99_scheme_violated), names of 716 million bytes (C99_size_violated). uriparser, which is not in the repository, is modelled as in its version 0.7."
  },
  {
   "property": "C100",
   "status": "partial",
   "theorems": [
    "Kml.Dom.C100_placemark",
    "Kml.Dom.C100_views",
    "Kml.Dom.C100_regions",
    "Kml.Dom.C100_polygon",
    "Kml.Dom.C100_tours",
    "Kml.Dom.C100_stamped",
    "Kml.Dom.C100_flight",
    "Kml.Dom.C100_no_flight",
    "Kml.Dom.C100_moved",
    "Kml.Dom.C100_box_partial",
    "Kml.Dom.C100_box_violated",
    "Kml.Dom.C100_atts_partial",
    "Kml.Dom.C100_atts_violated"
   ],
   "note": "C100_placemark, C100_views, C100_regions, C100_polygon, C100_tours, C100_stamped, C100_flight, C100_no_flight and C100_moved for all arguments; C100_box_partial for the corners of an outline and C100_atts_partial for attributes that are not blank. Violated: an outline is not closed (C100_box_violated), a blank attribute is an uninitialised number (C100_atts_violated)."
  },
  {
   "property": "C101",
   "status": "partial",
   "theorems": [
    "Kml.Rfc.C101_taken_apart",
    "Kml.Rfc.C101_grammar",
    "Kml.Rfc.C101_one_reading",
    "Kml.Rfc.C101_split_partial",
    "Kml.Rfc.C101_split_violated",
    "Kml.Rfc.C101_fetchable_partial",
    "Kml.Rfc.C101_fetchable_violated",
    "Kml.Rfc.C101_parts",
    "Kml.Rfc.C101_fetched",
    "Kml.Rfc.C101_brackets_violated",
    "Kml.Rfc.C101_resolved",
    "Kml.Rfc.C101_whole",
    "Kml.Rfc.C101_fragment",
    "Kml.Rfc.C101_no_base",
    "Kml.Rfc.C101_relative",
    "Kml.Rfc.C101_beside",
    "Kml.Rfc.C101_model"
   ],
   "note": "C101_taken_apart, C101_one_reading, C101_resolved, C101_whole, C101_fragment, C101_no_base, C101_relative, C101_beside and C101_model for all arguments; C101_split_partial and C101_fetchable_partial for addresses with a host. Violated: splitting drops the user and the root of a path (C101_split_violated); the fetchable URI drops the query, the user, the root of a path and the scheme of a file URI (C101_fetchable_violated). uriparser is not in the repository: it is modelled by RFC 3986. C101_parts and C101_fetched say for every well formed URI what splitting gives and what is fetched. Violated as well: the brackets of an IPv6 host are lost (C101_brackets_violated)."
  },
  {
   "property": "C102",
   "status": "partial",
   "theorems": [
    "Kml.Unzip.C102_open_partial",
    "Kml.Unzip.C102_bound",
    "Kml.Unzip.C102_terminates",
    "Kml.Unzip.C102_reading_terminates",
    "Kml.Unzip.C102_entry_partial",
    "Kml.Unzip.C102_end_record",
    "Kml.Unzip.C102_open_violated",
    "Kml.Unzip.C102_limit_violated"
   ],
   "note": "C102_bound, C102_terminates, C102_reading_terminates and C102_end_record for all bytes; C102_open_partial for bytes in which no directory entry has a name of 1024 bytes or more, C102_entry_partial for limits below 2 GB. Violated: a name of 1024 bytes or more fills the buffer without a NUL and is read past its end (C102_open_violated, for every archive with such a name); a limit of 4 GB lets the error code of a damaged file pass for its size (C102_limit_violated)."
  },
  {
   "property": "C103",
   "status": "partial",
   "theorems": [
    "Kml.Unzip.C103_names",
    "Kml.Unzip.C103_content_partial",
    "Kml.Unzip.C103_refines",
    "Kml.Unzip.C103_comment_violated"
   ],
   "note": "C103_names and C103_refines (the reader of bytes does on these archives what Model/ZipFile.lean says, so all that is proved about KMZ files with it holds of the bytes) for all archives of less than 2 GB with names below 1024 bytes, no NUL in a name and no further end record in the comment; C103_content_partial for names below 256 bytes and contents that are not empty. Violated: an archive comment of 65514 bytes or more hides the directory (C103_comment_violated). Empty files and names of 256 bytes are C72."
  },
  {
   "property": "C104",
   "status": "partial",
   "theorems": [
    "Kml.Unzip.C104_length_partial",
    "Kml.Unzip.C104_crc_violated",
    "Kml.Unzip.C104_encrypted_violated"
   ],
   "note": "C104_length_partial: what is given has the length that a directory entry in the data claims, for all bytes. Violated: the CRC is computed and its comparison ignored (C104_crc_violated), the bytes of encrypted files are given out as they are (C104_encrypted_violated)."
  },
  {
   "property": "C105",
   "status": "partial",
   "theorems": [
    "Kml.Threads.C105_toc_partial",
    "Kml.Threads.C105_toc_violated",
    "Kml.Threads.C105_count_partial",
    "Kml.Threads.C105_count_violated",
    "Kml.Threads.C105_leak_violated",
    "Kml.Threads.C105_given",
    "Kml.Threads.C105_single_partial",
    "Kml.Threads.C105_single_violated"
   ],
   "note": "C105_given: no thread is ever given NULL. C105_toc_partial, C105_count_partial and C105_single_partial for schedules in which a thread's use of the shared variable is not interrupted by another's. Violated: the name buffer of the constructor is static (C105_toc_violated); counts lose updates (C105_count_violated, C105_leak_violated); two factories can be made (C105_single_violated)."
  },
  {
   "property": "C106",
   "status": "partial",
   "theorems": [
    "Kml.Disk.C106_read",
    "Kml.Disk.C106_read_refused",
    "Kml.Disk.C106_nothing",
    "Kml.Disk.C106_read_partial",
    "Kml.Disk.C106_when",
    "Kml.Disk.C106_write_read",
    "Kml.Disk.C106_write_partial",
    "Kml.Disk.C106_full_violated",
    "Kml.Disk.C106_error_violated",
    "Kml.Disk.C106_directory_violated",
    "Kml.Disk.C106_answers",
    "Kml.Disk.C106_zero",
    "Kml.Disk.C106_archive"
   ],
   "note": "C106_read, C106_write_read, C106_when, C106_read_refused and C106_archive for all contents and paths on a disk without faults; C106_read_partial and C106_write_partial: with faults what is read or written is a beginning. Violated: a full disk (C106_full_violated), an error while reading (C106_error_violated) and a directory (C106_directory_violated) are taken for success."
  },
  {
   "property": "C107",
   "status": "partial",
   "theorems": [
    "Kml.Disk.C107_crash_partial",
    "Kml.Disk.C107_violated"
   ],
   "note": "C107_crash_partial: all other files are as they were and the file is as it was or a beginning of the new content. Violated: the file is emptied first (C107_violated)."
  },
  {
   "property": "C108",
   "status": "partial",
   "theorems": [
    "Kml.Disk.C108_removed",
    "Kml.Disk.C108_made",
    "Kml.Disk.C108_history_partial",
    "Kml.Disk.C108_violated"
   ],
   "note": "C108_made for all disks; C108_history_partial for histories in which no file of a live TempFile is removed by another way. Violated otherwise: the name may be used again and the first object removes the second's file (C108_violated)."
  },
  {
   "property": "C109",
   "status": "partial",
   "theorems": [
    "Kml.Ieee.C109_read",
    "Kml.Ieee.C109_tie",
    "Kml.Ieee.C109_write",
    "Kml.Ieee.C109_again",
    "Kml.Ieee.C109_fifteen_partial",
    "Kml.Ieee.C109_near",
    "Kml.Ieee.C109_violated",
    "Kml.Ieee.C109_greatest_violated",
    "Kml.Ieee.C109_special_violated",
    "Kml.Ieee.C109_exponent",
    "Kml.Ieee.C109_short",
    "Kml.Ieee.C109_int",
    "Kml.Ieee.C109_int_read",
    "Kml.Ieee.C109_laws"
   ],
   "note": "Proved: reading is to the nearest double, ties to even (C109_read, C109_tie); writing is to the nearest 15 digits (C109_write); a second reading and writing changes nothing, for every text (C109_again); numbers of at most 15 digits keep their value exactly (C109_fifteen_partial), all others to one part in 10^14 (C109_near); exponents are written only outside 10^-4 to 10^15 (C109_exponent) and no zeros behind a point (C109_short); ints are exact (C109_int, C109_int_read). Violated: 15 digits do not tell all doubles apart (C109_violated); the greatest double is written as a number beyond the doubles (C109_greatest_violated); infinities and NaN are written as texts that read as 0 (C109_special_violated). C109_laws discharges the assumptions of NumLib."
  },
  {
   "property": "C110",
   "status": "partial",
   "theorems": [
    "Kml.Ieee.C110_nearest",
    "Kml.Ieee.C110_between",
    "Kml.Ieee.C110_midpoint",
    "Kml.Ieee.C110_center",
    "Kml.Ieee.C110_children",
    "Kml.Ieee.C110_exact",
    "Kml.Ieee.C110_aligned",
    "Kml.Ieee.C110_written_partial",
    "Kml.Ieee.C110_written_violated",
    "Kml.Ieee.C110_shrinks_violated"
   ],
   "note": "Proved: each operation gives the nearest double (C110_nearest); midpoints lie between (C110_between, C110_midpoint), which discharges the assumption on the midpoint of C42, C58, C59 and C88 for doubles; centers (C110_center), children (C110_children), the exact quadtree to level 47 (C110_exact) and aligned boxes (C110_aligned); edges are written exactly down to level 15 (C110_written_partial). Violated: between two neighbouring doubles a child region is as high as its parent (C110_shrinks_violated); from level 16 on edges have more than the 15 digits written (C110_written_violated)."
  },
  {
   "property": "C111",
   "status": "partial",
   "theorems": [
    "Kml.Locale.C111_read",
    "Kml.Locale.C111_write",
    "Kml.Locale.C111_exchange",
    "Kml.Locale.C111_unique",
    "Kml.Locale.C111_ids",
    "Kml.Locale.C111_small_partial",
    "Kml.Locale.C111_files_violated",
    "Kml.Locale.C111_errors_violated"
   ],
   "note": "Proved: numbers of documents (C111_read, C111_write, C111_exchange), ids of regions (C111_ids), different names (C111_unique), file names and error messages with numbers below 1000 (C111_small_partial). Violated: with a locale that groups digits the file 1000 is 1,000.kml (C111_files_violated) and the line of an error is 12.345 (C111_errors_violated). Character classes (isspace, tolower) are those of the classic locale in the whole model."
  },
  {
   "property": "C112",
   "status": "partial",
   "theorems": [
    "Kml.Locale.C112_restored",
    "Kml.Locale.C112_failure_violated",
    "Kml.Locale.C112_others_violated",
    "Kml.Locale.C112_windows_violated"
   ],
   "note": "Proved when making locales succeeds (C112_restored, for the category of numbers). Violated: when it fails the destructor frees the locale of the caller (C112_failure_violated); the other categories become classic too (C112_others_violated). On Windows the end of every block is undefined (C112_windows_violated). Nothing in the library uses the class."
  },
  {
   "property": "C113",
   "status": "partial",
   "theorems": [
    "Kml.Ieee.C113_moment",
    "Kml.Ieee.C113_later",
    "Kml.Ieee.C113_windows_partial",
    "Kml.Ieee.C113_windows_wraps",
    "Kml.Ieee.C113_windows_violated"
   ],
   "note": "Proved for every second and microsecond (C113_moment, C113_later), and for Windows until 2038 (C113_windows_partial); after that the microseconds are right and the seconds but for multiples of 2^32 (C113_windows_wraps). Violated on Windows from 2038 on, where a long has 32 bits (C113_windows_violated)."
  },
  {
   "property": "C114",
   "status": "partial",
   "theorems": [
    "Kml.Dom.C114_same",
    "Kml.Dom.C114_entities",
    "Kml.Dom.C114_reported",
    "Kml.Dom.C114_stream",
    "Kml.Dom.C114_stream_same",
    "Kml.Dom.C114_stream_reported_partial",
    "Kml.Dom.C114_empty_violated",
    "Kml.Dom.C114_stream_violated",
    "Kml.Dom.C114_reason_violated"
   ],
   "note": "Entities: C114_entities, C114_stream; agreement with Stream.lean: C114_same, C114_stream_same; telling: C114_reported in full for texts, C114_stream_reported_partial for streams. Violated: telling of a stream that was stopped, as for an unknown root, writes a NULL pointer to a stream (C114_stream_violated), nothing is said of the empty text (C114_empty_violated), and a document nested too deep is said to have an invalid root (C114_reason_violated). The XML parser is a parameter."
  },
  {
   "property": "C115",
   "status": "partial",
   "theorems": [
    "Kml.Dom.C115_answer_partial",
    "Kml.Dom.C115_only",
    "Kml.Dom.C115_failed",
    "Kml.Dom.C115_unasked",
    "Kml.Dom.C115_errors",
    "Kml.Dom.C115_pages_partial",
    "Kml.Dom.C115_page_violated",
    "Kml.Dom.C115_missing_violated"
   ],
   "note": "C115_answer_partial for answers that are XML without bars in names and namespaces; C115_pages_partial for the pages and the requests for them; C115_only, C115_failed, C115_unasked and C115_errors in full. Violated: for a page of HTML the calls do not return NULL but use a pointer that was never written (C115_page_violated). A document is returned without a word when a page is refused (C115_missing_violated). The service and the XML parser are parameters."
  },
  {
   "property": "C116",
   "status": "partial",
   "theorems": [
    "Kml.DiskWin.C116_exists_partial",
    "Kml.DiskWin.C116_removed_partial",
    "Kml.DiskWin.C116_nothing",
    "Kml.DiskWin.C116_apart",
    "Kml.DiskWin.C116_temp_partial",
    "Kml.DiskWin.C116_exists_violated",
    "Kml.DiskWin.C116_other_violated",
    "Kml.DiskWin.C116_temp_violated",
    "Kml.DiskWin.C116_long_violated"
   ],
   "note": "C116_exists_partial, C116_removed_partial and C116_temp_partial for paths of ASCII and every code page that has ASCII in it; C116_nothing and C116_apart for all. Violated: for other characters an existing file does not exist (C116_exists_violated), another file is removed (C116_other_violated), temporary files stay (C116_temp_violated) or their path is lost (C116_long_violated). Names are compared by their characters, without the rules of letter case."
  },
  {
   "property": "C117",
   "status": "partial",
   "theorems": [
    "Kml.KmzObject.C117_opened",
    "Kml.KmzObject.C117_again",
    "Kml.KmzObject.C117_limit",
    "Kml.KmzObject.C117_within",
    "Kml.KmzObject.C117_there",
    "Kml.KmzObject.C117_size",
    "Kml.KmzObject.C117_kml",
    "Kml.KmzObject.C117_there_violated",
    "Kml.KmzObject.C117_list",
    "Kml.KmzObject.C117_append_violated",
    "Kml.KmzObject.C117_created_violated",
    "Kml.KmzObject.C117_added"
   ],
   "note": "C117_opened, C117_again, C117_limit, C117_within, C117_there, C117_size, C117_kml, C117_list and C117_added for all histories. Violated: what ReadFile says is there need not be readable (C117_there_violated), List loses what was in the vector although the header says it is appended to (C117_append_violated), and an archive being made lists and reads nothing, and SaveToString says true and gives no bytes (C117_created_violated)."
  },
  {
   "property": "C118",
   "status": "partial",
   "theorems": [
    "Kml.UriMem.C118_parsed_partial",
    "Kml.UriMem.C118_normalized",
    "Kml.UriMem.C118_resolved_partial",
    "Kml.UriMem.C118_held_partial",
    "Kml.UriMem.C118_text_violated",
    "Kml.UriMem.C118_base_violated",
    "Kml.UriMem.C118_leak_violated",
    "Kml.UriMem.C118_no_leak_partial"
   ],
   "note": "C118_normalized in full. C118_parsed_partial, C118_resolved_partial and C118_held_partial need the texts to be there still, C118_no_leak_partial that Parse is called only for new objects. Violated: a parser does not outlive the text it was made of (C118_text_violated), nor the normalised base it was resolved against (C118_base_violated), and Parse over an object loses its memory (C118_leak_violated). What uriparser does with memory is assumed as its documentation has it; ToString and failure of malloc are not modelled."
  },
  {
   "property": "C119",
   "status": "partial",
   "theorems": [
    "Kml.Parents.C119_child",
    "Kml.Parents.C119_added_partial",
    "Kml.Parents.C119_only_added",
    "Kml.Parents.C119_memory",
    "Kml.Parents.C119_kept_partial",
    "Kml.Parents.C119_calls",
    "Kml.Parents.C119_dead_violated",
    "Kml.Parents.C119_taken_violated"
   ],
   "note": "C119_child, C119_calls, C119_only_added and C119_memory for all histories. C119_added_partial: an element that was added has its parent as long as anything points to the parent, and asking is undefined exactly when nothing does. C119_kept_partial: a client that lets no element go never uses freed memory. Violated: a child that outlives its parent has a dangling one (C119_dead_violated); one that was taken out keeps its parent and can be added nowhere (C119_taken_violated). Files of elements are in C18."
  },
  {
   "property": "C120",
   "status": "partial",
   "theorems": [
    "Kml.CacheLife.C120_marked",
    "Kml.CacheLife.C120_link_partial",
    "Kml.CacheLife.C120_outlives",
    "Kml.CacheLife.C120_kept_partial",
    "Kml.CacheLife.C120_cache",
    "Kml.CacheLife.C120_closed_violated"
   ],
   "note": "C120_marked, C120_outlives and C120_cache for all histories. C120_link_partial: following a link is defined exactly if the file came from no cache or its cache is still there. C120_kept_partial: always if no cache is closed. Violated: net_cache.h permits a file to be held beyond the lifetime of its cache, but following a link of it then uses freed memory (C120_closed_violated)."
  },
  {
   "property": "C121",
   "status": "proved",
   "theorems": [
    "Kml.XsdDoc.C121_schema",
    "Kml.XsdDoc.C121_element",
    "Kml.XsdDoc.C121_type",
    "Kml.XsdDoc.C121_found",
    "Kml.XsdDoc.C121_builtin"
   ],
   "note": "For all texts and files. The names of built-in types are those of the code's table, which spells QName as QNAME."
  }
 ]
}