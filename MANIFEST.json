{
 "claims": [
  {
   "property": "C01",
   "status": "proved",
   "theorems": [
    "Dxf.C01_roundtrip",
    "Dxf.C01_no_control",
    "Dxf.C01_no_panic",
    "Dxf.C01_injective",
    "Dxf.C01_plain"
   ],
   "note": ""
  },
  {
   "property": "C02",
   "status": "proved",
   "theorems": [
    "Dxf.C02_ascii",
    "Dxf.C02_roundtrip_partial",
    "Dxf.C02_backslash_truncates",
    "Dxf.C02_fs_truncates",
    "Dxf.C02_astral_damaged",
    "Dxf.C02_claim_false",
    "Dxf.C02_every_astral_damaged"
   ],
   "note": "The unrestricted round trip is false of the code (C02_claim_false); the property as listed (ASCII only, round trip for BMP text without backslash, damage elsewhere) is proved, with the extra exception U+001C, which is written with a backslash."
  },
  {
   "property": "C03",
   "status": "proved",
   "theorems": [
    "Dxf.C03_roundtrip",
    "Dxf.C03_alphabet",
    "Dxf.C03_no_leading_zero",
    "Dxf.C03_injective",
    "Dxf.C03_long_text_truncated"
   ],
   "note": ""
  },
  {
   "property": "C04",
   "status": "proved",
   "theorems": [
    "Dxf.C04_roundtrip",
    "Dxf.C04_any_case",
    "Dxf.C04_rejects"
   ],
   "note": ""
  },
  {
   "property": "C05",
   "status": "proved",
   "theorems": [
    "Dxf.C05_roundtrip"
   ],
   "note": ""
  },
  {
   "property": "C06",
   "status": "proved",
   "theorems": [
    "Dxf.C06_reads",
    "Dxf.C06_stable",
    "Dxf.C06_error",
    "Dxf.C06_exact_multiples",
    "Dxf.C06_exact_large",
    "Dxf.C06_grammar",
    "Dxf.C06_infinities",
    "Dxf.C06_small_lost"
   ],
   "note": ""
  },
  {
   "property": "C07",
   "status": "proved",
   "theorems": [
    "Dxf.C07_roundtrip",
    "Dxf.C07_ascii_any_encoding",
    "Dxf.C07_empty",
    "Dxf.C07_bom_lost",
    "Dxf.C07_header_encoding"
   ],
   "note": "Strings must be representable (TextValue); witnesses show the exclusions are real."
  },
  {
   "property": "C08",
   "status": "proved",
   "theorems": [
    "Dxf.C08_roundtrip",
    "Dxf.C08_non_ascii",
    "Dxf.C08_long_chunk",
    "Dxf.C08_boolean_truncated",
    "Dxf.C08_first_code",
    "Dxf.C08_first_empty"
   ],
   "note": ""
  },
  {
   "property": "C09",
   "status": "proved",
   "theorems": [
    "Dxf.C09_text_binary"
   ],
   "note": ""
  },
  {
   "property": "C10",
   "status": "proved",
   "theorems": [
    "Dxf.C10_invisible",
    "Dxf.C10_insert",
    "Dxf.C10_lifo",
    "Dxf.C10_flat_next"
   ],
   "note": ""
  },
  {
   "property": "C11",
   "status": "proved",
   "theorems": [
    "Dxf.C11_table",
    "Dxf.C11_disjoint",
    "Dxf.C11_wellTyped",
    "Dxf.C11_accessors",
    "Dxf.C11_unknown_text",
    "Dxf.C11_unknown_binary"
   ],
   "note": ""
  },
  {
   "property": "C12",
   "status": "proved",
   "theorems": [
    "Dxf.C12_text_terminates",
    "Dxf.C12_binary_terminates",
    "Dxf.C12_end",
    "Dxf.C12_progress",
    "Dxf.C12_line_number"
   ],
   "note": ""
  },
  {
   "property": "C13",
   "status": "proved",
   "theorems": [
    "Dxf.C13",
    "Dxf.C13_step",
    "Dxf.C13_total",
    "Dxf.C13_children_partial",
    "Dxf.C13_attributes_shared",
    "Dxf.C13_vertices_shared",
    "Dxf.C13_children_in_blocks"
   ],
   "note": "Invariant over all histories of adding, removing, clearing, normalizing and assigning owners; C13_total: no step fails while handles remain. The property is about stored items; for the entities attached to an entity it fails if they were given handles before (witness theorems), otherwise it holds (C13_children_partial)."
  },
  {
   "property": "C14",
   "status": "proved",
   "theorems": [
    "Dxf.C14_lookup",
    "Dxf.C14_unknown",
    "Dxf.C14_mut",
    "Dxf.C14_add",
    "Dxf.C14_addBlock",
    "Dxf.C14_addEntity",
    "Dxf.C14_addObject",
    "Dxf.C14_stays",
    "Dxf.C14_removed"
   ],
   "note": "All reachable drawings. For blocks and entities the item found is the one added with its new handle."
  },
  {
   "property": "C15",
   "status": "proved",
   "theorems": [
    "Dxf.C15_table",
    "Dxf.C15_block",
    "Dxf.C15_entity",
    "Dxf.C15_object"
   ],
   "note": ""
  },
  {
   "property": "C16",
   "status": "partial",
   "theorems": [
    "Dxf.C16_standard",
    "Dxf.C16_partial",
    "Dxf.C16_twice",
    "Dxf.C16_violated",
    "Dxf.C16_new"
   ],
   "note": "The standard entries always exist. Normalizing again changes nothing if the view port *ACTIVE existed before the first time; otherwise, and so for every new drawing, the second time changes that view port (C16_violated); the third time changes nothing (C16_twice)."
  },
  {
   "property": "C17",
   "status": "proved",
   "theorems": [
    "Dxf.C17",
    "Dxf.C17_entry",
    "Dxf.C17_sensible",
    "Dxf.C17_rest"
   ],
   "note": "All drawings; the order is that of Rust strings (code points)."
  },
  {
   "property": "C18",
   "status": "partial",
   "theorems": [
    "Dxf.C18_entity",
    "Dxf.C18_layer",
    "Dxf.C18_object",
    "Dxf.C18_block_partial",
    "Dxf.C18_block_record_duplicated",
    "Dxf.C18_block_styles_missing",
    "Dxf.C18_attribute_styles_missing",
    "Dxf.C18_mline_style"
   ],
   "note": "Entities, layers and objects: all that the code looks at is there afterwards and nothing is duplicated. False of the code for blocks (a block record is always added; styles of the entities inside are not), attributes of inserts and multiline styles; each shown for all inputs."
  },
  {
   "property": "C19",
   "status": "proved",
   "theorems": [
    "Dxf.C19_header",
    "Dxf.C19_restored",
    "Dxf.C19_unread",
    "Dxf.C19_omitted_r2018",
    "Dxf.C19_omitted_r2000",
    "Dxf.C19_omitted_r12",
    "Dxf.C19_dimatfit_lost",
    "Dxf.C19_lossy",
    "Dxf.C19_date_panics"
   ],
   "note": "All 277 header fields, all versions. Theorems list the variables each version leaves out, the three that are written but never read, and the conversions that lose information."
  },
  {
   "property": "C20",
   "status": "proved",
   "theorems": [
    "Dxf.C20_tables",
    "Dxf.C20_layers",
    "Dxf.C20_complete_r2018",
    "Dxf.C20_complete_r2000",
    "Dxf.C20_complete_r12",
    "Dxf.C20_written",
    "Dxf.C20_written_view",
    "Dxf.C20_no_handle",
    "Dxf.C20_owner_lost",
    "Dxf.C20_viewport_ucs_lost",
    "Dxf.C20_view_center_z",
    "Dxf.C20_style_flags_truncated",
    "Dxf.C20_empty_group_lost",
    "Dxf.C20_layer_color_panics"
   ],
   "note": "All nine table kinds, any number of entries, all versions. Values must be representable in the pairs that carry them; theorems show what is lost: owners, third coordinates of two-coordinate points, i32 values beyond i16, the own-UCS flag of view ports from R2007 on."
  },
  {
   "property": "C21",
   "status": "partial",
   "theorems": [
    "Dxf.C21_entity_partial",
    "Dxf.C21_parent_partial",
    "Dxf.C21_unsupported",
    "Dxf.C21_offered",
    "Dxf.C21_complete_r2018",
    "Dxf.C21_complete_r2000",
    "Dxf.C21_complete_r12",
    "Dxf.C21_rotated_old",
    "Dxf.C21_lost_proxy_owner",
    "Dxf.C21_lost_proxy_preview",
    "Dxf.C21_lost_attribute_lock",
    "Dxf.C21_attribute_lock_new",
    "Dxf.C21_lost_mline_vertices",
    "Dxf.C21_lost_mtext_scale",
    "Dxf.C21_lost_mtext_color",
    "Dxf.C21_lost_mtext_columns",
    "Dxf.C21_lost_ole_preview",
    "Dxf.C21_lost_section_count",
    "Dxf.C21_lost_underlay_points",
    "Dxf.C21_lost_wipeout_vertices"
   ],
   "note": "All 45 entity kinds, all versions, all field values. The claim is false of the code for the fields listed in EName.lost (each shown by a witness theorem C21_lost_*) and for rotated dimensions before R13 (C21_rotated_old); everything else is proved."
  },
  {
   "property": "C22",
   "status": "partial",
   "theorems": [
    "Dxf.C22_partial",
    "Dxf.C22_all_partial",
    "Dxf.C22_unsupported",
    "Dxf.C22_offered",
    "Dxf.C22_complete_r2018",
    "Dxf.C22_complete_r2000",
    "Dxf.C22_lost_sharp",
    "Dxf.C22_lost_hard_owner",
    "Dxf.C22_xrecord",
    "Dxf.C22_lists_mline_style",
    "Dxf.C22_lists_spatial_filter",
    "Dxf.C22_lists_geo_data",
    "Dxf.C22_irregular_light_list",
    "Dxf.C22_irregular_sun_dates",
    "Dxf.C22_irregular_sun_hours",
    "Dxf.C22_irregular_data_table",
    "Dxf.C22_irregular_data_table_save",
    "Dxf.C22_irregular_data_table_load",
    "Dxf.C22_irregular_table_style",
    "Dxf.C22_irregular_sections"
   ],
   "note": "All object kinds, all versions, all field values. The claim is false of the code for the fields in OName.lost (C22_lost_sharp: the list cannot be made smaller), for the lists changed by OName.listsBack, and for the objects that are not Regular (C22_irregular_*, C22_xrecord); everything else is proved."
  },
  {
   "property": "C23",
   "status": "partial",
   "theorems": [
    "Dxf.C23_partial",
    "Dxf.C23_count",
    "Dxf.C23_endsec"
   ],
   "note": "All lists of classes, all versions, except more than i32::MAX instances and (before R14) a record name ENDSEC, for which the claim is false."
  },
  {
   "property": "C24",
   "status": "partial",
   "theorems": [
    "Dxf.C24_partial",
    "Dxf.C24_fields",
    "Dxf.C24_xdata_lost",
    "Dxf.C24_flags_truncated"
   ],
   "note": "All blocks, all versions; the entities inside are subject to the exceptions of C26. Extended data of blocks is always lost."
  },
  {
   "property": "C25",
   "status": "partial",
   "theorems": [
    "Dxf.C25_ext_group",
    "Dxf.C25_ext_group_pruned",
    "Dxf.C25_ext_empty_lost",
    "Dxf.C25_ext_not_plain",
    "Dxf.C25_xdata",
    "Dxf.C25_xdata_old",
    "Dxf.C25_reading_total"
   ],
   "note": "Round trips of groups and extended data on their own; the places where items carry them are modelled with the items."
  },
  {
   "property": "C26",
   "status": "partial",
   "theorems": [
    "Dxf.C26_partial",
    "Dxf.C26_vertices",
    "Dxf.C26_attributes",
    "Dxf.C26_vertex_flags",
    "Dxf.C26_scattered"
   ],
   "note": "Attached entities of all kinds, any number, all versions; false of the code for inserts with attributes from R13 on, which C26_scattered shows for every such insert."
  },
  {
   "property": "C27",
   "status": "partial",
   "theorems": [
    "Dxf.C27_section",
    "Dxf.C27_table",
    "Dxf.C27_variable",
    "Dxf.C27_entity",
    "Dxf.C27_object",
    "Dxf.C27_code_entity",
    "Dxf.C27_code_object",
    "Dxf.C27_code_table",
    "Dxf.C27_code_block",
    "Dxf.C27_code_class",
    "Dxf.C27_entry_violated",
    "Dxf.C27_block_violated",
    "Dxf.C27_class_violated",
    "Dxf.C27_pair_violated"
   ],
   "note": "Loading with and without the unknown content gives the same result at every place of a file. The code violates the property for entries of an unknown type within a table, for items between blocks and for pairs between sections (loading fails), and for items between classes (they become classes). Not covered: unknown codes inside section settings, table styles and x-records, whose readers take all pairs, and codes from 1002 on, which belong to extended data."
  },
  {
   "property": "C28",
   "status": "proved",
   "theorems": [
    "Dxf.C28_order",
    "Dxf.C28_gate",
    "Dxf.C28_monotone"
   ],
   "note": ""
  },
  {
   "property": "C29",
   "status": "proved",
   "theorems": [
    "Dxf.C29_roundtrip",
    "Dxf.C29_r11",
    "Dxf.C29_injective",
    "Dxf.C29_known",
    "Dxf.C29_unknown"
   ],
   "note": ""
  },
  {
   "property": "C30",
   "status": "proved",
   "theorems": [
    "Dxf.C30_partition",
    "Dxf.C30_index",
    "Dxf.C30_from_index",
    "Dxf.C30_setters"
   ],
   "note": ""
  },
  {
   "property": "C31",
   "status": "proved",
   "theorems": [
    "Dxf.C31_roundtrip",
    "Dxf.C31_negative",
    "Dxf.C31_zero_lost",
    "Dxf.C31_overflow",
    "Dxf.C31_overflow_only"
   ],
   "note": ""
  },
  {
   "property": "C32",
   "status": "proved",
   "theorems": [
    "Dxf.C32_set_get",
    "Dxf.C32_independent",
    "Dxf.C32_restore",
    "Dxf.C32_masks",
    "Dxf.C32_word"
   ],
   "note": ""
  },
  {
   "property": "C34",
   "status": "partial",
   "theorems": [
    "Dxf.C34_bytes",
    "Dxf.C34_written",
    "Dxf.C34_save_panics",
    "Dxf.C34_truncated",
    "Dxf.C34_offset",
    "Dxf.C34_palette_partial",
    "Dxf.C34_palette_violated",
    "Dxf.C34_load_panics",
    "Dxf.C34_roundtrip"
   ],
   "note": "The image library is a parameter. The offset does not count the palette of an image with at most eight bits per pixel and no number of colours (C34_palette_violated), and loading panics for some negative header sizes (C34_load_panics)."
  },
  {
   "property": "C35",
   "status": "partial",
   "theorems": [
    "Dxf.C35_partial",
    "Dxf.C35_one_end",
    "Dxf.C35_violated"
   ],
   "note": "Proved for drawings whose extension groups, XRecord data and (before R14) class names contain no bracket; false otherwise (C35_violated). The opening word SECTION is also the name of an entity, so that it may occur inside a section; the closing word may not. That saving does not change the drawing is the type of the function."
  },
  {
   "property": "C36",
   "status": "proved",
   "theorems": [
    "Dxf.C36",
    "Dxf.C36_between"
   ],
   "note": "A cut inside any section is noticed. A cut between two sections is not (C36_between): the mark at the end of a file is not required."
  },
  {
   "property": "C37",
   "status": "partial",
   "theorems": [
    "Dxf.C37_partial",
    "Dxf.C37_entities",
    "Dxf.C37_objects",
    "Dxf.C37_violated"
   ],
   "note": "Proved for the header, classes, tables, thumbnail and unknown sections. The claim is false of the code for entities and objects (C37_entities, C37_objects, C37_violated)."
  },
  {
   "property": "C38",
   "status": "proved",
   "theorems": [
    "Dxf.C38_roundtrip",
    "Dxf.C38_unpack"
   ],
   "note": ""
  },
  {
   "property": "C39",
   "status": "proved",
   "theorems": [
    "Dxf.C39_roundtrip",
    "Dxf.C39_short",
    "Dxf.C39_injective",
    "Dxf.C39_filter_transposed",
    "Dxf.C39_filter_identity_lost"
   ],
   "note": "The sixteen-value form is proved. The twelve-value form used by spatial filters violates the property: the matrix comes back transposed."
  },
  {
   "property": "C40",
   "status": "proved",
   "theorems": [
    "Dxf.C40_roundtrip3",
    "Dxf.C40_roundtrip2",
    "Dxf.C40_unequal"
   ],
   "note": ""
  },
  {
   "property": "C43",
   "status": "proved",
   "theorems": [
    "Dxf.C43_set_fresh",
    "Dxf.C43_set_not_overwriting",
    "Dxf.C43_overlap"
   ],
   "note": ""
  },
  {
   "property": "C44",
   "status": "proved",
   "theorems": [
    "Dxf.C44_near",
    "Dxf.C44_error",
    "Dxf.C44_midnight",
    "Dxf.C44_fraction",
    "Dxf.C44_before_1900",
    "Dxf.C44_limits",
    "Dxf.C44_last",
    "Dxf.C44_header_readable"
   ],
   "note": ""
  },
  {
   "property": "C45",
   "status": "partial",
   "theorems": [
    "Dxf.C45_load_partial",
    "Dxf.C45_block_diverges",
    "Dxf.C45_sections_diverge",
    "Dxf.C45_sections_written",
    "Dxf.C12_text_terminates",
    "Dxf.C12_binary_terminates"
   ],
   "note": "Proved for all files without blocks and SectionSettings objects. The claim is false of the code for these two: C45_block_diverges, C45_sections_diverge."
  },
  {
   "property": "C46",
   "status": "partial",
   "theorems": [
    "Dxf.C46_partial",
    "Dxf.C46_dangling"
   ],
   "note": "Holds for owners that are in the drawing already; false for owners added afterwards (C46_dangling, for every table entry)."
  },
  {
   "property": "C41",
   "status": "partial",
   "theorems": [
    "Dxf.C41_partial",
    "Dxf.C41_foreign",
    "Dxf.C41_children"
   ],
   "note": "Saved and loaded drawings (those of C42) have unique handles again; witnesses: files without $HANDSEED get handles assigned twice, and the vertices of all loaded polylines share one handle."
  },
  {
   "property": "C42",
   "status": "partial",
   "theorems": [
    "Dxf.C42_partial",
    "Dxf.C42_records_grow",
    "Dxf.C42_styles_grow"
   ],
   "note": "Any drawing whose parts satisfy the conditions of C19-C26, C34 is saved and loaded back; two general theorems say what is wrong: block records and multiline styles multiply with every round trip."
  },
  {
   "property": "C33",
   "status": "partial",
   "theorems": [
    "Dxf.C33_partial",
    "Dxf.C33_nearest",
    "Dxf.C33_again",
    "Dxf.C33_blocks",
    "Dxf.C33_bulge",
    "Dxf.C33_layer"
   ],
   "note": "All drawings without blocks; names of layers within Latin-1. The claim is false of the code for drawings with blocks (C33_blocks), for bulges and widths of vertices (C33_bulge) and for other names of layers (C33_layer)."
  },
  {
   "property": "C47",
   "status": "proved",
   "theorems": [
    "Dxf.C47"
   ],
   "note": ""
  },
  {
   "property": "C48",
   "status": "partial",
   "theorems": [
    "Dxf.C48_text_partial",
    "Dxf.C48_binary_partial"
   ],
   "note": "For the drawings of C42 whose values the file can carry (C07, C08). Loaded drawings are compared without the places of pairs kept in extension groups; a text file is described by the drawing with rounded numbers that has the same text."
  },
  {
   "property": "C49",
   "status": "partial",
   "theorems": [
    "Dxf.C49_partial",
    "Dxf.C49_violated",
    "Dxf.C49_unreadable"
   ],
   "note": "Proved for all drawings without hours of sun studies, given that the pairs the user put into extension groups and XRecords have the right types. Every sun study with hours violates it (C49_violated), and its binary file cannot be loaded (C49_unreadable)."
  },
  {
   "property": "C50",
   "status": "partial",
   "theorems": [
    "Dxf.C50_scaled",
    "Dxf.C50_partial",
    "Dxf.C50_unit",
    "Dxf.C50_block",
    "Dxf.C50_stray",
    "Dxf.C50_violated",
    "Dxf.C50_open",
    "Dxf.C50_mode"
   ],
   "note": "Proved for all lists of items whose names are Latin-1 and whose colours and flags the scale factor does not change (all of them for the factor 1, C50_unit). C50_scaled says what is loaded otherwise; C50_violated, C50_open and C50_mode show what goes wrong. Vertices outside of polylines and changes of mode or scale in the middle are not covered."
  },
  {
   "property": "C51",
   "status": "partial",
   "theorems": [
    "Dxf.C51_partial",
    "Dxf.C51_bytes_partial",
    "Dxf.C51_mild_partial",
    "Dxf.C51_pairs",
    "Dxf.C51_color",
    "Dxf.C51_table",
    "Dxf.C51_study",
    "Dxf.C51_layerIndex",
    "Dxf.C51_spatialIndex",
    "Dxf.C51_date",
    "Dxf.C51_handle",
    "Dxf.C51_picture"
   ],
   "note": "Proved for all streams and files without the causes of panics listed in Spec/Harmless; for each of these causes there is a file that makes loading panic. The image library is assumed not to panic; memory is unbounded."
  },
  {
   "property": "C52",
   "status": "partial",
   "theorems": [
    "Dxf.C52_iff",
    "Dxf.C52_files",
    "Dxf.C52_error",
    "Dxf.C52_loaded"
   ],
   "note": "C52_iff says exactly which drawings can be saved; it is false for the others (C52_loaded: one of them comes from a file). The colour -32768 of a layer, which overflows in debug builds when it is written, wraps in the model as in release builds (C31)."
  },
  {
   "property": "C53",
   "status": "partial",
   "theorems": [
    "Dxf.C53_partial",
    "Dxf.C53_owner_partial",
    "Dxf.C53_blocks"
   ],
   "note": "For the drawings of C41 and C42. False of the code for blocks before R13 (C53_blocks). The entities inside of blocks get new handles, but item_by_handle does not find these anyway."
  },
  {
   "property": "C54",
   "status": "partial",
   "theorems": [
    "Dxf.C54_get",
    "Dxf.C54_entity",
    "Dxf.C54_object",
    "Dxf.C54_later",
    "Dxf.C54_saved_partial",
    "Dxf.C54_buffer"
   ],
   "note": "Getting, setting and later operations are proved in full; saving and loading for the drawings of C53 and the references that are written and read back (Carries). False of the code for IdBuffer and SectionManager (C54_buffer, C22_lost_sharp)."
  },
  {
   "property": "C55",
   "status": "partial",
   "theorems": [
    "Dxf.C55_text_partial",
    "Dxf.C55_binary_partial",
    "Dxf.C55_violated"
   ],
   "note": "Proved for all drawings whose extension data do not look like brackets (C35), whose codes are known and whose words after code 0 are plain (Wordly), and for binary files whose values can be carried (C08, C49). False of the code at places between sections (C55_violated)."
  },
  {
   "property": "C56",
   "status": "partial",
   "theorems": [
    "Dxf.C56_partial",
    "Dxf.C56_reported",
    "Dxf.C56_dxb",
    "Dxf.C56_safe",
    "Dxf.C56_violated"
   ],
   "note": "Proved in full for text and binary files. For DXB files proved for readers without errors and interruptions, and for all readers if there is no scale factor; false of the code otherwise (C56_violated)."
  },
  {
   "property": "C57",
   "status": "proved",
   "theorems": [
    "Dxf.C57",
    "Dxf.C57_text",
    "Dxf.C57_binary",
    "Dxf.C57_dxb",
    "Dxf.C57_willing",
    "Dxf.C57_textPieces",
    "Dxf.C57_binaryPieces"
   ],
   "note": ""
  },
  {
   "property": "C58",
   "status": "partial",
   "theorems": [
    "Dxf.C58_partial",
    "Dxf.C58_prefix",
    "Dxf.C58_violated",
    "Dxf.C58_small",
    "Dxf.C58_lost",
    "Dxf.C58_destroyed"
   ],
   "note": "Proved for disks that take everything in the end; for other disks at most the last 8192 bytes are missing. False of the code for every drawing (C58_violated, C58_lost), and old files are lost when saving fails (C58_destroyed)."
  },
  {
   "property": "C59",
   "status": "partial",
   "theorems": [
    "Dxf.C59_partial",
    "Dxf.C59_history",
    "Dxf.C59_new",
    "Dxf.C59_built",
    "Dxf.C59_loaded",
    "Dxf.C59_dxb",
    "Dxf.C59_file",
    "Dxf.C59_reader",
    "Dxf.C59_violated"
   ],
   "note": "Proved in full for loading and for histories that remove no table entries and no objects; false of the code for these (C59_violated). Text and dimension styles of entities in blocks and of attributes are not part of the statement (C18_block_styles_missing, C18_attribute_styles_missing)."
  },
  {
   "property": "C60",
   "status": "proved",
   "theorems": [
    "Dxf.C60_entity",
    "Dxf.C60_object",
    "Dxf.C60_table",
    "Dxf.C60_block"
   ],
   "note": ""
  },
  {
   "property": "C61",
   "status": "partial",
   "theorems": [
    "Dxf.C61_partial",
    "Dxf.C61_runs",
    "Dxf.C61_records",
    "Dxf.C61_groups",
    "Dxf.C61_ucs_lost",
    "Dxf.C61_ucs_first"
   ],
   "note": "Proved for all numbers of repetitions, for the drawings of C42 whose dates the conversion to days reproduces (C44) and whose layers have positive colours. False of the code for coordinate systems of viewports from R2007 on (C61_ucs_lost), for nested empty extension groups (C61_groups), for the numbers of block records (C61_records) and of multiline styles (C42), and for the matrices of spatial filters (C39)."
  },
  {
   "property": "C62",
   "status": "proved",
   "theorems": [
    "Dxf.C62",
    "Dxf.C62_saved",
    "Dxf.C62_blank",
    "Dxf.C62_return",
    "Dxf.C62_utf16"
   ],
   "note": "For all text files made of pairs of lines whose codes are numerals in 32 bits; lines with values can be anything without a carriage return at the end and without a UTF-16 byte order mark, and C62_return and C62_utf16 show that both conditions are needed. C62_blank: blank lines are not layout."
  },
  {
   "property": "C63",
   "status": "partial",
   "theorems": [
    "Dxf.C63_partial",
    "Dxf.C63_lookup_partial",
    "Dxf.C63_entity_partial",
    "Dxf.C63_binary_partial",
    "Dxf.C63_ready"
   ],
   "note": "Proved for all histories whose items satisfy the conditions of C20 to C22, C24 and C26, in which handles, also the next one in the header, are only set by the library, and whose final header, classes and thumbnail satisfy the conditions of C19, C23 and C34. Entities are not pushed into blocks that are already in the drawing."
  },
  {
   "property": "C64",
   "status": "partial",
   "theorems": [
    "Dxf.C64_partial",
    "Dxf.C64_elevation",
    "Dxf.C64_kinds"
   ],
   "note": "For the drawings of C42 and C53, in both versions, with handles. Fields that do not always come back (C20, C21, C22) and the colours of layers are left out; of entities inside of blocks and attached to others only the numbers are compared. C64_elevation and C64_kinds: what the newer version has given up is really lost."
  },
  {
   "property": "C65",
   "status": "partial",
   "theorems": [
    "Dxf.C65_partial",
    "Dxf.C65_pairs",
    "Dxf.C65_unknown",
    "Dxf.C65_violated",
    "Dxf.C65_drift",
    "Dxf.C65_byte"
   ],
   "note": "Proved for text files, where the error about an unknown code names the line after the code (C65_unknown). False of the code for binary files: the places are neither the beginnings nor the ends of the pairs (C65_violated), grow wrong with every character beyond ASCII (C65_drift), and the error about the first bytes names the expected byte (C65_byte). DXB files are left out."
  },
  {
   "property": "C66",
   "status": "proved",
   "theorems": [
    "Dxf.C66_text",
    "Dxf.C66_binary",
    "Dxf.C66_dxb",
    "Dxf.C66_saved_text",
    "Dxf.C66_saved_binary",
    "Dxf.C66_needed"
   ],
   "note": "For saved files when the codes of the pairs are known (C49), and for binary ones when the values can be carried (C08)."
  },
  {
   "property": "C67",
   "status": "partial",
   "theorems": [
    "Dxf.C67_entity",
    "Dxf.C67_object",
    "Dxf.C67_table",
    "Dxf.C67_block",
    "Dxf.C67_class",
    "Dxf.C67_header",
    "Dxf.C67_needed"
   ],
   "note": "Proved for all kinds of items but section settings, table styles and x-records, for pairs outside of extension groups and extended data, between codes that decide what other codes mean (EName.fixed, OName.fixed). C67_needed: for light-weight polylines, dimensions, dictionaries, dimension styles and viewports the order of the excepted codes does matter."
  },
  {
   "property": "C68",
   "status": "partial",
   "theorems": [
    "Dxf.C68_classes",
    "Dxf.C68_tables",
    "Dxf.C68_table",
    "Dxf.C68_blocks",
    "Dxf.C68_entities",
    "Dxf.C68_objects",
    "Dxf.C68_header_violated",
    "Dxf.C68_needed",
    "Dxf.C68_order_violated"
   ],
   "note": "Proved for all sections with lists of items and for single tables. False of the code for the header (C68_header_violated). C68_needed: the condition on entities cannot be dropped; C68_order_violated: the order of the sections matters."
  },
  {
   "property": "C69",
   "status": "partial",
   "theorems": [
    "Dxf.C69_entity",
    "Dxf.C69_object",
    "Dxf.C69_columns",
    "Dxf.C69_violated",
    "Dxf.C69_data_violated",
    "Dxf.C69_table_violated"
   ],
   "note": "Proved for all computed numbers of list lengths up to the limit of their type. False of the code beyond it (C69_violated), for the data of macro projects (C69_data_violated) and for tables (C69_table_violated). Numbers that are fields of their own (dashes of a line type, lengths of OLE data) are the caller's."
  },
  {
   "property": "C70",
   "status": "partial",
   "theorems": [
    "Dxf.C70_entity",
    "Dxf.C70_object",
    "Dxf.C70_table",
    "Dxf.C70_block",
    "Dxf.C70_class",
    "Dxf.C70_header",
    "Dxf.C70_needed"
   ],
   "note": "Proved for all kinds of items but section settings, table styles and x-records, for pairs outside of extension groups and extended data, between codes that decide what other codes mean, and for codes that stand for one value (EName.lists, OName.lists and TName.lists are the others). C70_needed: for the excepted codes both values count."
  },
  {
   "property": "C71",
   "status": "partial",
   "theorems": [
    "Dxf.C71_partial",
    "Dxf.C71_sound",
    "Dxf.C71_lookup",
    "Dxf.C71_stored",
    "Dxf.C71_attribute",
    "Dxf.C71_vertex",
    "Dxf.C71_step",
    "Dxf.C71_cleared",
    "Dxf.C71_copied"
   ],
   "note": "Proved for all histories in which the drawing is not cleared while entities are being made and no copy of an entity with attributes or vertices is stored; both give shared handles (C71_cleared, C71_copied). For such entities in blocks see C13_children_in_blocks."
  },
  {
   "property": "C72",
   "status": "partial",
   "theorems": [
    "Dxf.C72_entities",
    "Dxf.C72_blocks",
    "Dxf.C72_classes",
    "Dxf.C72_table",
    "Dxf.C72_objects",
    "Dxf.C72_thumbnail",
    "Dxf.C72_header",
    "Dxf.C72_text",
    "Dxf.C72_binary",
    "Dxf.C72_add"
   ],
   "note": "Proved for the pairs of the file, and for the bytes by C72_text and C72_binary. Left out: the header fields 45 and 46, which are written as two variables each; the version and handles_enabled, which change the whole file; and the step from no items to some, with which the section (or table) appears."
  },
  {
   "property": "C73",
   "status": "proved",
   "theorems": [
    "Dxf.C73_found",
    "Dxf.C73_both",
    "Dxf.C73_written",
    "Dxf.C73_lookup",
    "Dxf.C73_renamed",
    "Dxf.C73_file",
    "Dxf.C73_needed"
   ],
   "note": "The reference is modelled as a place in the drawing, a change through it as a function on the item there. C73_needed: with the handle of another item, or the next one to be given out, the handles are not unique any more."
  },
  {
   "property": "C74",
   "status": "partial",
   "theorems": [
    "Dxf.C74_classes",
    "Dxf.C74_written",
    "Dxf.C74_read",
    "Dxf.C74_partial",
    "Dxf.C74_violated"
   ],
   "note": "False of the code for by_block() and by_layer(), and only for these (C74_violated): the two numbers are exchanged. The meaning of the numbers is that of the DXF reference (Spec/LineWeight). Line weights of layers and dimension styles come back by C20."
  },
  {
   "property": "C75",
   "status": "partial",
   "theorems": [
    "Dxf.C75_table",
    "Dxf.C75_entity",
    "Dxf.C75_exact",
    "Dxf.C75_object",
    "Dxf.C75_file",
    "Dxf.C75_block_partial",
    "Dxf.C75_violated"
   ],
   "note": "Proved for table entries, entities and objects. False of the code for blocks: the block record that is added with a block stays (C75_violated); everything else about blocks is proved."
  },
  {
   "property": "C76",
   "status": "proved",
   "theorems": [
    "Dxf.C76_file",
    "Dxf.C76_bytes",
    "Dxf.C76_dxb",
    "Dxf.C76_needed"
   ],
   "note": "Drawings that are alike have the same files but for the value of $HANDSEED; from the same next handle the bytes are the same. C76_needed: with handles enabled they do matter."
  },
  {
   "property": "C77",
   "status": "partial",
   "theorems": [
    "Dxf.C77_made",
    "Dxf.C77_written",
    "Dxf.C77_read",
    "Dxf.C77_one",
    "Dxf.Drawing.C77_file"
   ],
   "note": "Spec/Shapes.lean gives the codes after the DXF reference, apart from the tables of the model. Missing: entities with extension groups when writing (a group may contain any codes), and extension groups, comments and extended data between the codes when reading."
  },
  {
   "property": "C78",
   "status": "partial",
   "theorems": [
    "Dxf.C78_written",
    "Dxf.C78_read",
    "Dxf.C78_zero"
   ],
   "note": "C78_zero: a rotation of -0.0 is left out and so becomes 0.0, since the writer compares as Rust does. Missing: block references with attributes and entities with extension groups when writing; extension groups, comments and extended data between the codes when reading; styles, justification and arrays of block references."
  },
  {
   "property": "C79",
   "status": "partial",
   "theorems": [
    "Dxf.C79_written",
    "Dxf.C79_read",
    "Dxf.C79_flags",
    "Dxf.C79_violated"
   ],
   "note": "The code violates the last sentence: the flags of layers are not read and 0 is always written (C79_violated), so frozen and locked layers become thawed and unlocked. Missing otherwise: extension groups when writing, and extension groups, comments and extended data between the codes when reading."
  },
  {
   "property": "C80",
   "status": "partial",
   "theorems": [
    "Dxf.C80_written",
    "Dxf.C80_read"
   ],
   "note": "Missing: extension groups when writing, widths and bulges of -0.0 (they are left out, which means 0.0), and extension groups, comments and extended data between the codes when reading."
  },
  {
   "property": "C81",
   "status": "partial",
   "theorems": [
    "Dxf.C81_style_written",
    "Dxf.C81_style_read",
    "Dxf.C81_lineType_written",
    "Dxf.C81_lineType_read",
    "Dxf.C81_violated"
   ],
   "note": "The code violates the last sentence: the flags of text styles are not read and 0 is always written (C81_violated), so vertical text becomes horizontal. Missing otherwise: extension groups when writing, extension groups, comments and extended data between the codes when reading, and the shapes and texts in complex line types."
  },
  {
   "property": "C82",
   "status": "partial",
   "theorems": [
    "Dxf.C82_written",
    "Dxf.C82_read"
   ],
   "note": "Proved for the ten settings named; comments between the variables are missing. The other variables are covered by C19 (written and read back), but not against the DXF reference."
  },
  {
   "property": "C83",
   "status": "partial",
   "theorems": [
    "Dxf.C83_written",
    "Dxf.C83_read"
   ],
   "note": "Writing is for splines without extension groups, whose content may have any codes. Tolerances, tangents, flags and the normal are missing; comments and extension data among the fields too. Degrees are those that fit in 16 bits."
  },
  {
   "property": "C84",
   "status": "partial",
   "theorems": [
    "Dxf.C84_written",
    "Dxf.C84_read",
    "Dxf.C84_violated"
   ],
   "note": "Proved for all types but MTEXT, whose reader takes the scale of the line type (48) for the width of a column: C84_violated. Reading is not proved for dimensions, which are dropped when no code says of what kind they are. Writing is for entities without extension groups, whose content may have any codes, and for versions since R13."
  }
 ]
}