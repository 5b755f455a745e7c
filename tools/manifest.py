"""Writes MANIFEST.json: property -> status, theorems, note."""
import json
C = []
def claim(p, status, theorems, note=""):
    C.append({"property": p, "status": status, "theorems": ["Dxf." + t for t in theorems.split()], "note": note})

claim("C01", "proved", "C01_roundtrip C01_no_control C01_no_panic C01_injective C01_plain")
claim("C02", "proved", "C02_ascii C02_roundtrip_partial C02_backslash_truncates C02_fs_truncates C02_astral_damaged C02_claim_false C02_every_astral_damaged",
      "The unrestricted round trip is false of the code (C02_claim_false); the property as listed (ASCII only, round trip for BMP text without backslash, damage elsewhere) is proved, with the extra exception U+001C, which is written with a backslash.")
claim("C03", "proved", "C03_roundtrip C03_alphabet C03_no_leading_zero C03_injective C03_long_text_truncated")
claim("C04", "proved", "C04_roundtrip C04_any_case C04_rejects")
claim("C05", "proved", "C05_roundtrip")
claim("C06", "proved", "C06_reads C06_stable C06_error C06_exact_multiples C06_exact_large C06_grammar C06_infinities C06_small_lost")
claim("C07", "proved", "C07_roundtrip C07_ascii_any_encoding C07_empty C07_bom_lost C07_header_encoding",
      "Strings must be representable (TextValue); witnesses show the exclusions are real.")
claim("C08", "proved", "C08_roundtrip C08_non_ascii C08_long_chunk C08_boolean_truncated C08_first_code C08_first_empty")
claim("C09", "proved", "C09_text_binary")
claim("C10", "proved", "C10_invisible C10_insert C10_lifo C10_flat_next")
claim("C11", "proved", "C11_table C11_disjoint C11_wellTyped C11_accessors C11_unknown_text C11_unknown_binary")
claim("C12", "proved", "C12_text_terminates C12_binary_terminates C12_end C12_progress C12_line_number")
claim("C13", "proved", "C13 C13_step C13_total C13_children_partial C13_attributes_shared C13_vertices_shared C13_children_in_blocks",
      "Invariant over all histories of adding, removing, clearing, normalizing and assigning owners; C13_total: no step fails while handles remain. The property is about stored items; for the entities attached to an entity it fails if they were given handles before (witness theorems), otherwise it holds (C13_children_partial).")
claim("C14", "proved", "C14_lookup C14_unknown C14_mut C14_add C14_addBlock C14_addEntity C14_addObject C14_stays C14_removed",
      "All reachable drawings. For blocks and entities the item found is the one added with its new handle.")
claim("C15", "proved", "C15_table C15_block C15_entity C15_object")
claim("C16", "partial", "C16_standard C16_partial C16_twice C16_violated C16_new",
      "The standard entries always exist. Normalizing again changes nothing if the view port *ACTIVE existed before the first time; otherwise, and so for every new drawing, the second time changes that view port (C16_violated); the third time changes nothing (C16_twice).")
claim("C17", "proved", "C17 C17_entry C17_sensible C17_rest",
      "All drawings; the order is that of Rust strings (code points).")
claim("C18", "partial", "C18_entity C18_layer C18_object C18_block_partial C18_block_record_duplicated C18_block_styles_missing C18_attribute_styles_missing C18_mline_style",
      "Entities, layers and objects: all that the code looks at is there afterwards and nothing is duplicated. False of the code for blocks (a block record is always added; styles of the entities inside are not), attributes of inserts and multiline styles; each shown for all inputs.")
claim("C19", "proved", "C19_header C19_restored C19_unread C19_omitted_r2018 C19_omitted_r2000 C19_omitted_r12 C19_dimatfit_lost C19_lossy C19_date_panics",
      "All 277 header fields, all versions. Theorems list the variables each version leaves out, the three that are written but never read, and the conversions that lose information.")
claim("C20", "proved", "C20_tables C20_layers C20_complete_r2018 C20_complete_r2000 C20_complete_r12 C20_written C20_written_view C20_no_handle C20_owner_lost C20_viewport_ucs_lost C20_view_center_z C20_style_flags_truncated C20_empty_group_lost C20_layer_color_panics",
      "All nine table kinds, any number of entries, all versions. Values must be representable in the pairs that carry them; theorems show what is lost: owners, third coordinates of two-coordinate points, i32 values beyond i16, the own-UCS flag of view ports from R2007 on.")
claim("C21", "partial", "C21_entity_partial C21_parent_partial C21_unsupported C21_offered C21_complete_r2018 C21_complete_r2000 C21_complete_r12 C21_rotated_old C21_lost_proxy_owner C21_lost_proxy_preview C21_lost_attribute_lock C21_attribute_lock_new C21_lost_mline_vertices C21_lost_mtext_scale C21_lost_mtext_color C21_lost_mtext_columns C21_lost_ole_preview C21_lost_section_count C21_lost_underlay_points C21_lost_wipeout_vertices",
      "All 45 entity kinds, all versions, all field values. The claim is false of the code for the fields listed in EName.lost (each shown by a witness theorem C21_lost_*) and for rotated dimensions before R13 (C21_rotated_old); everything else is proved.")
claim("C22", "partial", "C22_partial C22_all_partial C22_unsupported C22_offered C22_complete_r2018 C22_complete_r2000 C22_lost_sharp C22_lost_hard_owner C22_xrecord C22_lists_mline_style C22_lists_spatial_filter C22_lists_geo_data C22_irregular_light_list C22_irregular_sun_dates C22_irregular_sun_hours C22_irregular_data_table C22_irregular_data_table_save C22_irregular_data_table_load C22_irregular_table_style C22_irregular_sections",
      "All object kinds, all versions, all field values. The claim is false of the code for the fields in OName.lost (C22_lost_sharp: the list cannot be made smaller), for the lists changed by OName.listsBack, and for the objects that are not Regular (C22_irregular_*, C22_xrecord); everything else is proved.")
claim("C23", "partial", "C23_partial C23_count C23_endsec",
      "All lists of classes, all versions, except more than i32::MAX instances and (before R14) a record name ENDSEC, for which the claim is false.")
claim("C24", "partial", "C24_partial C24_fields C24_xdata_lost C24_flags_truncated",
      "All blocks, all versions; the entities inside are subject to the exceptions of C26. Extended data of blocks is always lost.")
claim("C25", "partial", "C25_ext_group C25_ext_group_pruned C25_ext_empty_lost C25_ext_not_plain C25_xdata C25_xdata_old C25_reading_total",
      "Round trips of groups and extended data on their own; the places where items carry them are modelled with the items.")
claim("C26", "partial", "C26_partial C26_vertices C26_attributes C26_vertex_flags C26_scattered",
      "Attached entities of all kinds, any number, all versions; false of the code for inserts with attributes from R13 on, which C26_scattered shows for every such insert.")
claim("C27", "partial", "C27_section C27_table C27_variable C27_entity C27_object C27_code_entity C27_code_object C27_code_table C27_code_block C27_code_class C27_entry_violated C27_block_violated C27_class_violated C27_pair_violated",
      "Loading with and without the unknown content gives the same result at every place of a file. The code violates the property for entries of an unknown type within a table, for items between blocks and for pairs between sections (loading fails), and for items between classes (they become classes). Not covered: unknown codes inside section settings, table styles and x-records, whose readers take all pairs, and codes from 1002 on, which belong to extended data.")
claim("C28", "proved", "C28_order C28_gate C28_monotone")
claim("C29", "proved", "C29_roundtrip C29_r11 C29_injective C29_known C29_unknown")
claim("C30", "proved", "C30_partition C30_index C30_from_index C30_setters")
claim("C31", "proved", "C31_roundtrip C31_negative C31_zero_lost C31_overflow C31_overflow_only")
claim("C32", "proved", "C32_set_get C32_independent C32_restore C32_masks C32_word")
claim("C34", "partial", "C34_bytes C34_written C34_save_panics C34_truncated C34_offset C34_palette_partial C34_palette_violated C34_load_panics C34_roundtrip",
      "The image library is a parameter. The offset does not count the palette of an image with at most eight bits per pixel and no number of colours (C34_palette_violated), and loading panics for some negative header sizes (C34_load_panics).")
claim("C35", "partial", "C35_partial C35_one_end C35_violated",
      "Proved for drawings whose extension groups, XRecord data and (before R14) class names contain no bracket; false otherwise (C35_violated). The opening word SECTION is also the name of an entity, so that it may occur inside a section; the closing word may not. That saving does not change the drawing is the type of the function.")
claim("C36", "proved", "C36 C36_between",
      "A cut inside any section is noticed. A cut between two sections is not (C36_between): the mark at the end of a file is not required.")
claim("C37", "partial", "C37_partial C37_entities C37_objects C37_violated",
      "Proved for the header, classes, tables, thumbnail and unknown sections. The claim is false of the code for entities and objects (C37_entities, C37_objects, C37_violated).")
claim("C38", "proved", "C38_roundtrip C38_unpack")
claim("C39", "proved", "C39_roundtrip C39_short C39_injective C39_filter_transposed C39_filter_identity_lost",
      "The sixteen-value form is proved. The twelve-value form used by spatial filters violates the property: the matrix comes back transposed.")
claim("C40", "proved", "C40_roundtrip3 C40_roundtrip2 C40_unequal")
claim("C43", "proved", "C43_set_fresh C43_set_not_overwriting C43_overlap")
claim("C44", "proved", "C44_near C44_error C44_midnight C44_fraction C44_before_1900 C44_limits C44_last C44_header_readable")
claim("C45", "partial", "C45_load_partial C45_block_diverges C45_sections_diverge C45_sections_written C12_text_terminates C12_binary_terminates",
      "Proved for all files without blocks and SectionSettings objects. The claim is false of the code for these two: C45_block_diverges, C45_sections_diverge.")
claim("C46", "partial", "C46_partial C46_dangling",
      "Holds for owners that are in the drawing already; false for owners added afterwards (C46_dangling, for every table entry).")
claim("C41", "partial", "C41_partial C41_foreign C41_children",
      "Saved and loaded drawings (those of C42) have unique handles again; witnesses: files without $HANDSEED get handles assigned twice, and the vertices of all loaded polylines share one handle.")
claim("C42", "partial", "C42_partial C42_records_grow C42_styles_grow",
      "Any drawing whose parts satisfy the conditions of C19-C26, C34 is saved and loaded back; two general theorems say what is wrong: block records and multiline styles multiply with every round trip.")
claim("C33", "partial", "C33_partial C33_nearest C33_again C33_blocks C33_bulge C33_layer",
      "All drawings without blocks; names of layers within Latin-1. The claim is false of the code for drawings with blocks (C33_blocks), for bulges and widths of vertices (C33_bulge) and for other names of layers (C33_layer).")
claim("C47", "proved", "C47")
claim("C48", "partial", "C48_text_partial C48_binary_partial",
      "For the drawings of C42 whose values the file can carry (C07, C08). Loaded drawings are compared without the places of pairs kept in extension groups; a text file is described by the drawing with rounded numbers that has the same text.")
claim("C49", "partial", "C49_partial C49_violated C49_unreadable",
      "Proved for all drawings without hours of sun studies, given that the pairs the user put into extension groups and XRecords have the right types. Every sun study with hours violates it (C49_violated), and its binary file cannot be loaded (C49_unreadable).")
claim("C50", "partial", "C50_scaled C50_partial C50_unit C50_block C50_stray C50_violated C50_open C50_mode",
      "Proved for all lists of items whose names are Latin-1 and whose colours and flags the scale factor does not change (all of them for the factor 1, C50_unit). C50_scaled says what is loaded otherwise; C50_violated, C50_open and C50_mode show what goes wrong. Vertices outside of polylines and changes of mode or scale in the middle are not covered.")
claim("C51", "partial", "C51_partial C51_bytes_partial C51_mild_partial C51_pairs C51_color C51_table C51_study C51_layerIndex C51_spatialIndex C51_date C51_handle C51_picture",
      "Proved for all streams and files without the causes of panics listed in Spec/Harmless; for each of these causes there is a file that makes loading panic. The image library is assumed not to panic; memory is unbounded.")
claim("C52", "partial", "C52_iff C52_files C52_error C52_loaded",
      "C52_iff says exactly which drawings can be saved; it is false for the others (C52_loaded: one of them comes from a file). The colour -32768 of a layer, which overflows in debug builds when it is written, wraps in the model as in release builds (C31).")
claim("C53", "partial", "C53_partial C53_owner_partial C53_blocks",
      "For the drawings of C41 and C42. False of the code for blocks before R13 (C53_blocks). The entities inside of blocks get new handles, but item_by_handle does not find these anyway.")
claim("C54", "partial", "C54_get C54_entity C54_object C54_later C54_saved_partial C54_buffer",
      "Getting, setting and later operations are proved in full; saving and loading for the drawings of C53 and the references that are written and read back (Carries). False of the code for IdBuffer and SectionManager (C54_buffer, C22_lost_sharp).")
claim("C55", "partial", "C55_text_partial C55_binary_partial C55_violated",
      "Proved for all drawings whose extension data do not look like brackets (C35), whose codes are known and whose words after code 0 are plain (Wordly), and for binary files whose values can be carried (C08, C49). False of the code at places between sections (C55_violated).")
claim("C56", "partial", "C56_partial C56_reported C56_dxb C56_safe C56_violated",
      "Proved in full for text and binary files. For DXB files proved for readers without errors and interruptions, and for all readers if there is no scale factor; false of the code otherwise (C56_violated).")
claim("C57", "proved", "C57 C57_text C57_binary C57_dxb C57_willing C57_textPieces C57_binaryPieces")
claim("C58", "partial", "C58_partial C58_prefix C58_violated C58_small C58_lost C58_destroyed",
      "Proved for disks that take everything in the end; for other disks at most the last 8192 bytes are missing. False of the code for every drawing (C58_violated, C58_lost), and old files are lost when saving fails (C58_destroyed).")
claim("C59", "partial", "C59_partial C59_history C59_new C59_built C59_loaded C59_dxb C59_file C59_reader C59_violated",
      "Proved in full for loading and for histories that remove no table entries and no objects; false of the code for these (C59_violated). Text and dimension styles of entities in blocks and of attributes are not part of the statement (C18_block_styles_missing, C18_attribute_styles_missing).")
claim("C60", "proved", "C60_entity C60_object C60_table C60_block")
claim("C61", "partial", "C61_partial C61_runs C61_records C61_groups C61_ucs_lost C61_ucs_first",
      "Proved for all numbers of repetitions, for the drawings of C42 whose dates the conversion to days reproduces (C44) and whose layers have positive colours. False of the code for coordinate systems of viewports from R2007 on (C61_ucs_lost), for nested empty extension groups (C61_groups), for the numbers of block records (C61_records) and of multiline styles (C42), and for the matrices of spatial filters (C39).")
claim("C62", "proved", "C62 C62_saved C62_blank C62_return C62_utf16",
      "For all text files made of pairs of lines whose codes are numerals in 32 bits; lines with values can be anything without a carriage return at the end and without a UTF-16 byte order mark, and C62_return and C62_utf16 show that both conditions are needed. C62_blank: blank lines are not layout.")
claim("C63", "partial", "C63_partial C63_lookup_partial C63_entity_partial C63_binary_partial C63_ready",
      "Proved for all histories whose items satisfy the conditions of C20 to C22, C24 and C26, in which handles, also the next one in the header, are only set by the library, and whose final header, classes and thumbnail satisfy the conditions of C19, C23 and C34. Entities are not pushed into blocks that are already in the drawing.")
claim("C64", "partial", "C64_partial C64_elevation C64_kinds",
      "For the drawings of C42 and C53, in both versions, with handles. Fields that do not always come back (C20, C21, C22) and the colours of layers are left out; of entities inside of blocks and attached to others only the numbers are compared. C64_elevation and C64_kinds: what the newer version has given up is really lost.")
claim("C65", "partial", "C65_partial C65_pairs C65_unknown C65_violated C65_drift C65_byte",
      "Proved for text files, where the error about an unknown code names the line after the code (C65_unknown). False of the code for binary files: the places are neither the beginnings nor the ends of the pairs (C65_violated), grow wrong with every character beyond ASCII (C65_drift), and the error about the first bytes names the expected byte (C65_byte). DXB files are left out.")
claim("C66", "proved", "C66_text C66_binary C66_dxb C66_saved_text C66_saved_binary C66_needed",
      "For saved files when the codes of the pairs are known (C49), and for binary ones when the values can be carried (C08).")
claim("C67", "partial", "C67_entity C67_object C67_table C67_block C67_class C67_header C67_needed",
      "Proved for all kinds of items but section settings, table styles and x-records, for pairs outside of extension groups and extended data, between codes that decide what other codes mean (EName.fixed, OName.fixed). C67_needed: for light-weight polylines, dimensions, dictionaries, dimension styles and viewports the order of the excepted codes does matter.")
claim("C68", "partial", "C68_classes C68_tables C68_table C68_blocks C68_entities C68_objects C68_header_violated C68_needed C68_order_violated",
      "Proved for all sections with lists of items and for single tables. False of the code for the header (C68_header_violated). C68_needed: the condition on entities cannot be dropped; C68_order_violated: the order of the sections matters.")
claim("C69", "partial", "C69_entity C69_object C69_columns C69_violated C69_data_violated C69_table_violated",
      "Proved for all computed numbers of list lengths up to the limit of their type. False of the code beyond it (C69_violated), for the data of macro projects (C69_data_violated) and for tables (C69_table_violated). Numbers that are fields of their own (dashes of a line type, lengths of OLE data) are the caller's.")
claim("C70", "partial", "C70_entity C70_object C70_table C70_block C70_class C70_header C70_needed",
      "Proved for all kinds of items but section settings, table styles and x-records, for pairs outside of extension groups and extended data, between codes that decide what other codes mean, and for codes that stand for one value (EName.lists, OName.lists and TName.lists are the others). C70_needed: for the excepted codes both values count.")
claim("C71", "partial", "C71_partial C71_sound C71_lookup C71_stored C71_attribute C71_vertex C71_step C71_cleared C71_copied",
      "Proved for all histories in which the drawing is not cleared while entities are being made and no copy of an entity with attributes or vertices is stored; both give shared handles (C71_cleared, C71_copied). For such entities in blocks see C13_children_in_blocks.")
claim("C72", "partial", "C72_entities C72_blocks C72_classes C72_table C72_objects C72_thumbnail C72_header C72_text C72_binary C72_add",
      "Proved for the pairs of the file, and for the bytes by C72_text and C72_binary. Left out: the header fields 45 and 46, which are written as two variables each; the version and handles_enabled, which change the whole file; and the step from no items to some, with which the section (or table) appears.")
claim("C73", "proved", "C73_found C73_both C73_written C73_lookup C73_renamed C73_file C73_needed",
      "The reference is modelled as a place in the drawing, a change through it as a function on the item there. C73_needed: with the handle of another item, or the next one to be given out, the handles are not unique any more.")
claim("C74", "partial", "C74_classes C74_written C74_read C74_partial C74_violated",
      "False of the code for by_block() and by_layer(), and only for these (C74_violated): the two numbers are exchanged. The meaning of the numbers is that of the DXF reference (Spec/LineWeight). Line weights of layers and dimension styles come back by C20.")
claim("C75", "partial", "C75_table C75_entity C75_exact C75_object C75_file C75_block_partial C75_violated",
      "Proved for table entries, entities and objects. False of the code for blocks: the block record that is added with a block stays (C75_violated); everything else about blocks is proved.")
claim("C76", "proved", "C76_file C76_bytes C76_dxb C76_needed",
      "Drawings that are alike have the same files but for the value of $HANDSEED; from the same next handle the bytes are the same. C76_needed: with handles enabled they do matter.")
claim("C77", "partial", "C77_made C77_written C77_read C77_one Drawing.C77_file",
      "Spec/Shapes.lean gives the codes after the DXF reference, apart from the tables of the model. Missing: entities with extension groups when writing (a group may contain any codes), and extension groups, comments and extended data between the codes when reading.")
claim("C78", "partial", "C78_written C78_read C78_zero",
      "C78_zero: a rotation of -0.0 is left out and so becomes 0.0, since the writer compares as Rust does. Missing: block references with attributes and entities with extension groups when writing; extension groups, comments and extended data between the codes when reading; styles, justification and arrays of block references.")
claim("C79", "partial", "C79_written C79_read C79_flags C79_violated",
      "The code violates the last sentence: the flags of layers are not read and 0 is always written (C79_violated), so frozen and locked layers become thawed and unlocked. Missing otherwise: extension groups when writing, and extension groups, comments and extended data between the codes when reading.")
claim("C80", "partial", "C80_written C80_read",
      "Missing: extension groups when writing, widths and bulges of -0.0 (they are left out, which means 0.0), and extension groups, comments and extended data between the codes when reading.")
claim("C81", "partial", "C81_style_written C81_style_read C81_lineType_written C81_lineType_read C81_violated",
      "The code violates the last sentence: the flags of text styles are not read and 0 is always written (C81_violated), so vertical text becomes horizontal. Missing otherwise: extension groups when writing, extension groups, comments and extended data between the codes when reading, and the shapes and texts in complex line types.")
claim("C82", "partial", "C82_written C82_read",
      "Proved for the ten settings named; comments between the variables are missing. The other variables are covered by C19 (written and read back), but not against the DXF reference.")
claim("C83", "partial", "C83_written C83_read",
      "Writing is for splines without extension groups, whose content may have any codes. Tolerances, tangents, flags and the normal are missing; comments and extension data among the fields too. Degrees are those that fit in 16 bits.")
claim("C84", "partial", "C84_written C84_read C84_violated",
      "Proved for all types but MTEXT, whose reader takes the scale of the line type (48) for the width of a column: C84_violated. Reading is not proved for dimensions, which are dropped when no code says of what kind they are. Writing is for entities without extension groups, whose content may have any codes, and for versions since R13.")
json.dump({"claims": C}, open("/verif/MANIFEST.json", "w"), indent=1)
