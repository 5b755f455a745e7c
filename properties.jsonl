{"id": "C01", "title": "Control characters in strings survive a save", "statement": "For every string, the control-character escaping done on save contains no character below U+0020 (so a value can never break the one-line-per-value file layout), and un-escaping it on load yields exactly the original string.", "quantifier": "all strings of Unicode scalar values, any length", "why_tests_cant": "The input space is all strings; the tests check three fixed strings.", "anchors": ["src/code_pair_value.rs: escape_control_characters", "src/code_pair_value.rs: CodePairValue::un_escape_string"]}
{"id": "C02", "title": "Old-version text is pure ASCII and its \\U+ escapes decode back", "statement": "When a drawing is saved with a version up to R2004 every string is written with ASCII characters only, and decoding it yields the original string for every string without a backslash or U+001C (which is written with a backslash) whose characters are in the Basic Multilingual Plane; outside that set the round trip is false (backslash text and astral characters are damaged), with concrete witnesses.", "quantifier": "all strings; exact characterisation of the damaged ones by witnesses", "why_tests_cant": "Unbounded strings and 1.1 million characters; tests use four sample words.", "anchors": ["src/code_pair_value.rs: escape_unicode_to_ascii", "src/code_pair_value.rs: un_escape_ascii_to_unicode"]}
{"id": "C03", "title": "Handle text is faithful", "statement": "For every 64-bit handle, the text written for it is non-empty upper-case hex without leading zeros and reads back to exactly that handle, also with surrounding blanks; two different handles never have the same text.", "quantifier": "all 2^64 handles, any amount of surrounding white space", "why_tests_cant": "2^64 values; tests check six.", "anchors": ["src/handle.rs: Handle::as_string", "src/code_pair.rs: CodePair::as_handle", "src/helper_functions.rs: parse_hex_string"]}
{"id": "C04", "title": "Binary chunks survive the text format", "statement": "Every byte sequence written as a hex value line is read back byte for byte; the decoder accepts upper and lower case, and rejects every line containing a character that is not a hex digit.", "quantifier": "all byte sequences of any length; all strings for the rejection half", "why_tests_cant": "Unbounded sequences; tests use two bytes.", "anchors": ["src/helper_functions.rs: parse_hex_string", "src/code_pair_value.rs: Debug for CodePairValue"]}
{"id": "C05", "title": "Integers survive the text format", "statement": "Every i16, i32 and i64 value written in its padded decimal column is read back to exactly the same value.", "quantifier": "all values of the three integer types", "why_tests_cant": "2^64 values plus interplay of padding, sign and the parser's range checks.", "anchors": ["src/code_pair_value.rs: Debug for CodePairValue", "src/helper_functions.rs: parse_i16, parse_i32, parse_i64"]}
{"id": "C06", "title": "Floating-point text is stable", "statement": "For every finite f64, writing it as text, reading that text and writing again gives the same text; the value read differs from the original by no more than 10^-12; values that are multiples of 2^-12 and values of magnitude at least 2^13 are read back bit for bit; the text always matches the grammar digits '.' digits.", "quantifier": "all finite IEEE-754 doubles", "why_tests_cant": "2^64 bit patterns; the property depends on correct rounding of two conversions.", "anchors": ["src/code_pair_value.rs: format_f64", "src/helper_functions.rs: parse_f64"]}
{"id": "C07", "title": "ASCII code-pair stream round trip", "statement": "Writing any list of well-typed code pairs in the text format and reading the bytes back produces the same codes and values in the same order and then a clean end of input, with no pair split, merged, dropped or invented.", "quantifier": "all lists of code pairs of any length whose code/value types agree with the code table and whose strings are representable in the chosen encoding", "why_tests_cant": "Unbounded streams of pairs with arbitrary string contents (blank lines, digits, CR/LF, ...).", "anchors": ["src/code_pair_writer.rs: write_ascii_code_pair", "src/code_pair_iter.rs: TextCodePairIter", "src/helper_functions.rs: read_line"]}
{"id": "C08", "title": "Binary code-pair stream round trip", "statement": "Writing any list of well-typed code pairs in the binary format (one-byte codes before R13, two-byte codes from R13) and reading the bytes back produces the same pairs in the same order, doubles bit for bit, provided the first pair has code 0, strings are ASCII and binary chunks have at most 255 bytes; outside those limits the round trip is false, with witnesses.", "quantifier": "all lists of code pairs, both code widths", "why_tests_cant": "Unbounded streams; the width auto-detection depends on the first pair.", "anchors": ["src/code_pair_writer.rs: write_binary_code_pair", "src/code_pair_iter.rs: BinaryCodePairIter"]}
{"id": "C09", "title": "Text and binary files carry the same drawing", "statement": "For every list of code pairs representable in both formats, reading the text file and reading the binary file give the same sequence of pairs up to the documented 12-decimal rounding of doubles.", "quantifier": "all lists of representable pairs", "why_tests_cant": "Relates two encoders and two decoders on unbounded inputs.", "anchors": ["src/code_pair_writer.rs", "src/code_pair_iter.rs"]}
{"id": "C10", "title": "Comments are invisible", "statement": "Inserting any number of 999 comment pairs anywhere in a pair stream does not change what any consumer of the stream observes; put-back items are returned in last-in-first-out order before any new input.", "quantifier": "all pair streams, all comment placements, all interleavings of next and put_back", "why_tests_cant": "Unbounded interleavings.", "anchors": ["src/code_pair_put_back.rs: CodePairPutBack"]}
{"id": "C11", "title": "Every value has exactly one wire type", "statement": "The group-code table assigns each integer code at most one value type; a pair produced by either reader always carries a value of the type its code demands, so typed accessors never fail on a pair whose code table type matches; codes outside the table are rejected with an error naming the current offset.", "quantifier": "all i32 codes; all byte inputs", "why_tests_cant": "2^32 codes and arbitrary inputs.", "anchors": ["src/expected_type.rs: ExpectedType::new", "src/code_pair_iter.rs", "src/code_pair.rs: assert_*"]}
{"id": "C12", "title": "Arbitrary bytes never hang or crash the pair readers", "statement": "For every byte sequence both pair readers terminate, yielding finitely many items, each a well-typed pair or an error; every successful item consumes at least one byte and reported text offsets are exactly the 1-based line number of the code line.", "quantifier": "all byte sequences", "why_tests_cant": "All possible (hostile) inputs.", "anchors": ["src/code_pair_iter.rs", "src/helper_functions.rs: read_line"]}
{"id": "C13", "title": "Handles handed out are unique and never null", "statement": "Starting from a new drawing, after any sequence of add, remove, clear and normalize operations no two stored items share a handle and no stored item has the null handle, and the next handle is greater than all of them (below u64 overflow).", "quantifier": "all finite operation histories on a drawing", "why_tests_cant": "Requires an invariant over unbounded histories.", "anchors": ["src/drawing.rs: add_*, next_handle, normalize, remove_*", "src/handle.rs: next_handle_value"]}
{"id": "C14", "title": "Lookup by handle finds exactly the item added", "statement": "After adding an item, looking up the handle it was given returns that item, until it is removed or the drawing cleared; looking up a handle never given returns nothing; lookup and mutable lookup agree.", "quantifier": "all operation histories and all item kinds", "why_tests_cant": "History-dependent.", "anchors": ["src/drawing.rs: item_by_handle, item_by_handle_mut, add_*"]}
{"id": "C15", "title": "Removing by index behaves like a list", "statement": "Removing index i returns the i-th item and leaves the others in order when i is in range, and returns nothing and changes nothing otherwise.", "quantifier": "all drawings, all indices, all collections", "why_tests_cant": "Unbounded collections.", "anchors": ["src/drawing.rs: remove_*, remove_item"]}
{"id": "C16", "title": "Normalize is idempotent and completes the drawing", "statement": "After normalize the standard app ids, block records, dimension styles, layers, line types, text styles and view ports exist, and normalizing a second time changes nothing (including the next handle).", "quantifier": "all reachable drawings", "why_tests_cant": "Unbounded drawing contents.", "anchors": ["src/drawing.rs: normalize, ensure_*"]}
{"id": "C17", "title": "Normalize sorts and loses nothing", "statement": "Normalize leaves every table sorted by name, and every table entry present before is still present (up to the documented per-item defaulting); existing entries keep their handles.", "quantifier": "all drawings", "why_tests_cant": "Unbounded table contents.", "anchors": ["src/drawing.rs: normalize"]}
{"id": "C18", "title": "Names referenced by added items exist", "statement": "After adding an entity, block, layer or object, the layer, line type, text style, dimension style, multiline style and view it refers to exist in the drawing (matched case-insensitively where the code does so), existing entries are neither duplicated nor modified.", "quantifier": "all drawings and all entities", "why_tests_cant": "Any drawing history, any names.", "anchors": ["src/drawing.rs: add_*_no_handle_set, ensure_*"]}
{"id": "C19", "title": "Header variables round trip", "statement": "For every header, writing the header section for a version and reading it back restores every variable that the version writes and leaves every other variable at the value it had before reading.", "quantifier": "all header values, all versions", "why_tests_cant": "285 variables x 21 versions x unbounded values.", "anchors": ["build/header_generator.rs", "spec/HeaderVariablesSpec.xml", "src/header.rs: Header::read, add_code_pairs"]}
{"id": "C20", "title": "Table entries round trip", "statement": "For every table entry of each of the nine table kinds, writing the table and reading it back restores every field the version writes, in order, with the same handle.", "quantifier": "all tables of any length, all versions", "why_tests_cant": "Unbounded tables with arbitrary field values.", "anchors": ["build/table_generator.rs", "spec/TableSpec.xml", "src/table.rs"]}
{"id": "C21", "title": "Entities round trip", "statement": "For every entity of a supported kind, writing it and reading it back restores the kind and every field the version writes.", "quantifier": "all entities of the modelled kinds, all versions that support them", "why_tests_cant": "About 45 kinds with arbitrary field values and repeated groups.", "anchors": ["build/entity_generator.rs", "spec/EntitiesSpec.xml", "src/entity.rs"]}
{"id": "C22", "title": "Objects round trip", "statement": "For every object of a supported kind, writing it and reading it back restores the kind and every field the version writes.", "quantifier": "all objects of the modelled kinds", "why_tests_cant": "Arbitrary field values and unbounded repeated groups.", "anchors": ["build/object_generator.rs", "spec/ObjectsSpec.xml", "src/object.rs"]}
{"id": "C23", "title": "Classes round trip", "statement": "For every list of classes, writing the CLASSES section and reading it back restores each class; the flag accessors of proxy capabilities are independent bits.", "quantifier": "all lists of classes, versions from R13 resp. R14", "why_tests_cant": "Unbounded lists and 2^32 flag words.", "anchors": ["src/class.rs"]}
{"id": "C24", "title": "Blocks round trip", "statement": "For every block, writing it and reading it back restores name, layer, base point, flags, description, x-ref path, extension groups and the contained entities in order.", "quantifier": "all blocks with any number of contained entities", "why_tests_cant": "Unbounded contents.", "anchors": ["src/block.rs"]}
{"id": "C25", "title": "Extension groups and XData round trip", "statement": "Every well-formed tree of extension-data groups and every well-formed XData tree is read back exactly, to any nesting depth, and reading consumes exactly what writing produced; the exceptions (empty groups, XData before R2000, XData after a block's or insert's children) are shown by witnesses.", "quantifier": "all trees of any depth and width", "why_tests_cant": "Recursion depth is unbounded.", "anchors": ["src/extension_data.rs", "src/x_data.rs"]}
{"id": "C26", "title": "Compound entities keep their children", "statement": "Reading what was written for an entity list in which inserts carry attributes and polylines carry vertices returns the same list: children go to the right parent, in order, and nothing after the end-of-sequence mark is absorbed.", "quantifier": "all entity lists, any number of children", "why_tests_cant": "Unbounded interleavings of parents and children.", "anchors": ["src/entity_iter.rs: collect_entities", "src/entity.rs: add_post_code_pairs"]}
{"id": "C27", "title": "Unknown content is skipped without side effects", "statement": "Inserting an unknown section, an unknown table, an unsupported entity or an unknown group code anywhere a section, table, entity or code may appear does not change the drawing that is loaded.", "quantifier": "all drawings, all unknown contents not containing the terminator", "why_tests_cant": "Arbitrary foreign content.", "anchors": ["src/drawing.rs: swallow_section, swallow_table, read_sections", "src/entity.rs: Entity::read"]}
{"id": "C28", "title": "Version gating is monotone and exact", "statement": "An item or field with a minimum (maximum) version is written for exactly the versions at or after (at or before) it; the version order is the release order.", "quantifier": "all version pairs, all gated fields", "why_tests_cant": "All 21 versions against all gated fields.", "anchors": ["build/*_generator.rs", "src/enums.rs: AcadVersion"]}
{"id": "C29", "title": "Version strings identify the version", "statement": "Parsing the text of a version gives the version back for every version except R11 (whose text is R12's), and unknown texts fall back to R12 or to a numbered variant exactly as documented.", "quantifier": "all versions, all strings", "why_tests_cant": "All strings.", "anchors": ["src/enums.rs: AcadVersion::from, from_safe, Display"]}
{"id": "C30", "title": "Colour classification is a partition", "statement": "Every stored colour value is exactly one of by-layer, by-block, by-entity, turned-off, index 1..255 or out-of-range; from_index/index round trip; setters establish their predicate.", "quantifier": "all 2^16 raw values and all 256 indices", "why_tests_cant": "Exhaustive over the type, not sampled.", "anchors": ["src/color.rs", "src/line_weight.rs"]}
{"id": "C31", "title": "Layer visibility is carried by the colour sign", "statement": "Writing a layer's colour and reading it back restores both the colour index and the on/off state for every colour with non-zero index; for index 0 the off state is lost and for the minimal raw value writing overflows (witnesses).", "quantifier": "all raw colours, both visibility states", "why_tests_cant": "65536 x 2 combinations including an overflow.", "anchors": ["src/color.rs: writable_color_value", "src/helper_functions.rs: read_color_value", "spec/TableSpec.xml: Layer"]}
{"id": "C32", "title": "Flag accessors are independent", "statement": "Setting a boolean flag of an item makes its getter return that value and changes no other flag of the word, for every flag word; setting back restores the word.", "quantifier": "all flag words and all flag masks used", "why_tests_cant": "2^32 words times flags.", "anchors": ["src/class.rs: flag, set_flag", "src/block.rs: get_flag, set_flag", "build/*: generated flag accessors"]}
{"id": "C33", "title": "DXB round trip", "statement": "A drawing without blocks saved as DXB and loaded again has the same supported entities in the same order with the same layer and colour, coordinates rounded to single precision; with a block present the property fails (witness).", "quantifier": "all drawings made of the supported entity kinds", "why_tests_cant": "Unbounded drawings.", "anchors": ["src/dxb_reader.rs", "src/dxb_writer.rs"]}
{"id": "C34", "title": "Thumbnail bytes stay a valid bitmap", "statement": "Reading the thumbnail chunks written for a bitmap reassembles the bytes written, and the pixel-data offset written into the reconstructed header equals header size plus palette size for every bits-per-pixel value; truncated headers are reported as errors, never out-of-bounds accesses.", "quantifier": "all byte sequences and chunkings", "why_tests_cant": "Arbitrary image bytes.", "anchors": ["src/thumbnail.rs", "src/drawing.rs: add_thumbnail_pairs"]}
{"id": "C35", "title": "Saved files are well bracketed", "statement": "The pair list produced for any drawing consists of properly opened and closed sections in the order HEADER, CLASSES, TABLES, BLOCKS, ENTITIES, OBJECTS, THUMBNAILIMAGE followed by exactly one EOF mark at the very end; saving never changes the drawing.", "quantifier": "all drawings, all versions", "why_tests_cant": "Unbounded drawings.", "anchors": ["src/drawing.rs: code_pairs, add_*_pairs"]}
{"id": "C36", "title": "A cut-off file is noticed", "statement": "Loading a proper prefix of a pair stream never succeeds when the cut lies inside a section; it can only succeed when the cut lies between sections.", "quantifier": "all pair streams and all cut points", "why_tests_cant": "All cut points of all files.", "anchors": ["src/drawing.rs: read_sections, load_from_iter"]}
{"id": "C37", "title": "Malformed values are reported", "statement": "A drawing whose pair stream contains an unreadable pair is never loaded successfully with content silently missing. The code violates this: entity and object iteration turns an error into the end of the section (witness); for the header, classes, tables and blocks the property is proved.", "quantifier": "all pair streams containing an error item", "why_tests_cant": "All positions of the malformed pair.", "anchors": ["src/entity_iter.rs", "src/object_iter.rs", "src/drawing.rs: read_sections"]}
{"id": "C38", "title": "Dimension type word", "statement": "Packing the dimension kind and its three flag bits into one word and unpacking restores all four values; unpacking any word never panics.", "quantifier": "all kinds and flags, all 2^16 words", "why_tests_cant": "Exhaustive over the word.", "anchors": ["src/entity.rs: DimensionBase::set_dimension_type, dimension_type"]}
{"id": "C39", "title": "Transformation matrix layout", "statement": "Writing a matrix's values and rebuilding it from them restores the matrix; short inputs fill missing cells with zero and extra values are ignored.", "quantifier": "all matrices and all value lists", "why_tests_cant": "Unbounded lists.", "anchors": ["src/transformation_matrix.rs"]}
{"id": "C40", "title": "Point lists are recombined", "statement": "Splitting a list of points into coordinate lists on save and recombining on load restores the list; unequal coordinate lists are handled without loss of well-formed prefixes.", "quantifier": "all point lists of any length", "why_tests_cant": "Unbounded lists.", "anchors": ["src/helper_functions.rs: combine_points_2, combine_points_3", "src/entity.rs: post_parse"]}
{"id": "C41", "title": "Loading re-issues no handle in use", "statement": "After loading a file written by this library, handles newly assigned differ from all handles in the file. For foreign files with a too small or missing $HANDSEED the property is false (witness).", "quantifier": "all written drawings; witness for foreign ones", "why_tests_cant": "All drawings.", "anchors": ["src/drawing.rs: load_from_iter, next_handle", "spec/HeaderVariablesSpec.xml: $HANDSEED"]}
{"id": "C42", "title": "Saving and loading a drawing preserves it", "statement": "For every drawing built from the modelled content, loading what save wrote gives a drawing with the same header values, tables, blocks, entities and objects (the fields written by the drawing's version).", "quantifier": "all drawings of the modelled content, all versions", "why_tests_cant": "The top-level property: all drawings.", "anchors": ["src/drawing.rs: save, load"]}
{"id": "C43", "title": "Proxy entity version accessors", "statement": "Setting a proxy entity's drawing format version on a fresh entity makes its getter return it for every value below 65536. The setter does not clear the previous value and the maintenance-version accessors overlap the format version, so overwriting is wrong (witnesses).", "quantifier": "all 32-bit words and versions", "why_tests_cant": "2^64 combinations of word and argument; there is no test.", "anchors": ["src/entity.rs: ProxyEntity::set_object_drawing_format_version", "src/entity.rs: ProxyEntity::set_object_mainenance_release_version"]}
{"id": "C44", "title": "Dates survive saving to within one second", "statement": "A date from 1900 on that is saved in the header and loaded again comes back less than one second early and at most one second late, without panic. It is not always exact: the start of every day comes back one second late, fractions of a second are lost, and dates before 1900 come back as 1900-01-01.", "quantifier": "all dates from 1900 to the year 10610", "why_tests_cant": "the conversion goes through a chain of rounded divisions, a sum and a truncation; which dates drift depends on the rounding of each one", "anchors": ["src/helper_functions.rs: as_double", "src/helper_functions.rs: as_datetime", "src/header.rs"]}
{"id": "C45", "title": "Loading terminates", "statement": "Loading ends, with a drawing or an error, for every file, also for cut-off and malformed ones. (False: a section that ends inside a block makes the loader loop forever.)", "quantifier": "all byte streams", "why_tests_cant": "all inputs; tests only try files that someone thought of, and a test of the bad case does not end", "anchors": ["src/block.rs: Block::read_block", "src/drawing.rs: Drawing::load", "src/entity_iter.rs: EntityIter::next"]}
{"id": "C46", "title": "Owner pointers lead to the owner", "statement": "Making an item the owner of another one makes the owner of that other one findable: looking up the owner pointer gives the owner, whether the owner is in the drawing already or is added later. (False for owners added later: adding replaces the handle that the pointer holds.)", "quantifier": "all drawings and items", "why_tests_cant": "depends on the order of operations and on all the handles given out before", "anchors": ["src/block.rs: Block::set_owner", "src/drawing.rs: Drawing::assign_and_get_handle", "build/table_generator.rs: set_owner", "src/drawing.rs: Drawing::add_layer"]}
{"id": "C47", "title": "Loading any DXB file gives a drawing or an error", "statement": "Whatever bytes follow the first line of a DXB file, loading ends with a drawing, in which no two items have the same handle, or with an error; it neither panics nor goes on forever.", "quantifier": "all byte strings shorter than 2^58", "why_tests_cant": "all inputs, including malformed ones; the reader keeps state (mode, scale, last points) from item to item", "anchors": ["src/dxb_reader.rs: DxbReader::load", "src/drawing.rs: Drawing::load_with_encoding", "src/entity_iter.rs: collect_entities"]}
{"id": "C48", "title": "A drawing saved as bytes is loaded from them", "statement": "Saving a drawing as a text or binary file and loading the bytes of that file gives the drawing back (as in the property about saving and loading), with numbers rounded to twelve decimals in text files. The caller need not know the encoding: files of R2007 and later, which are UTF-8, are read correctly by a loader that starts with Windows-1252.", "quantifier": "all drawings of the modelled content, all versions, both kinds of files, all encodings named by the caller for binary files", "why_tests_cant": "the encoding is changed in the middle of reading, at a place that depends on the content; every drawing has another file", "anchors": ["src/drawing.rs: save, save_binary, load, load_with_encoding", "src/header.rs: Header::read", "src/code_pair_iter.rs: read_as_utf8", "src/code_pair_writer.rs"]}
{"id": "C49", "title": "Every pair of a saved file has the type of its code", "statement": "The code of a pair determines the type of its value (string, double, number of 1, 2, 4 or 8 bytes, bytes); in every saved file each value has that type, so that binary files can be read. (False: the hours of a sun study are written as numbers of two bytes with a code of one-byte values; a binary file with hours cannot be loaded.)", "quantifier": "all drawings, all versions", "why_tests_cant": "hundreds of fields in generated code; the tests save few of them as binary files", "anchors": ["src/drawing.rs: code_pairs, save_binary", "src/object.rs: Object::add_custom_code_pairs", "src/code_pair.rs", "src/expected_type.rs", "build/entity_generator.rs", "build/object_generator.rs"]}
{"id": "C50", "title": "The items of a DXB file mean what the format says", "statement": "Loading a DXB file makes the entities that its items stand for, in the same order: layer and colour hold until they are changed; line and trace extensions go on where the last line or trace ended; bulges and widths belong to the vertex before them, and are refused elsewhere; numbers are single-precision floats, or whole numbers multiplied by the scale factor; with a base point the entities are those of one block. (False: colours, flags and the number mode are multiplied by the scale factor, too, so that with the factor 1/2 colour 5 is read as 2 and a closed polyline as an open one.)", "quantifier": "all lists of items, both number modes, all scale factors", "why_tests_cant": "the meaning of an item depends on all items before it; the tests read one sample file", "anchors": ["src/dxb_reader.rs: DxbReader::load, read_n, read_a, read_u, read_w", "src/dxb_item_type.rs", "src/entity_iter.rs: collect_entities"]}
{"id": "C51", "title": "Loading never panics", "statement": "Loading a file gives a drawing or an error, whatever its content is; it does not panic. (False: the colour -32768 of a layer, a data table that gives its number of rows or columns twice, dates after the end of the calendar in the header, in indexes and in sun studies, a next available handle near the last one, and a thumbnail with a negative size lead to panics. These are all the causes.)", "quantifier": "all byte strings and all streams of pairs (shorter than 2^58)", "why_tests_cant": "all inputs, including malformed ones; a panic needs a certain value at a certain place", "anchors": ["src/drawing.rs: Drawing::load, load_from_iter", "src/helper_functions.rs: as_datetime_local, read_color_value", "src/object.rs: apply_custom_reader_datatable, apply_custom_reader_sunstudy", "src/thumbnail.rs: update_thumbnail_data_offset_in_situ", "src/handle.rs: next_handle_value"]}
{"id": "C52", "title": "Every drawing can be saved", "statement": "Saving a drawing to memory succeeds, as text and as binary file. (False: data tables with a column and no row, with missing cells or with missing names of columns make saving panic, also if they come from a file that was loaded without an error. Nothing else goes wrong, apart from thumbnails of which the image library makes no bitmap.)", "quantifier": "all drawings, all versions", "why_tests_cant": "all drawings; the tests save regular data tables only", "anchors": ["src/drawing.rs: save, save_binary, code_pairs", "src/object.rs: Object::add_custom_code_pairs"]}
{"id": "C53", "title": "Handles lead to the same items after saving and loading", "statement": "If a handle leads to an item (item_by_handle), then after saving the drawing with handles and loading it, the handle leads to that item as it was read from the file, provided that the version of the file has the item; and no handle that was given out before saving leads to anything else, although new handles are assigned when loading. In particular the owner of an item is the same item as before. (False for the blocks of R12: the handle of the block leads to nothing afterwards.)", "quantifier": "all drawings of the modelled content with unique handles, all versions, all handles", "why_tests_cant": "all combinations of items and references; handles are assigned while loading, depending on everything loaded before", "anchors": ["src/drawing.rs: item_by_handle, save, load, add_block_no_handle_set", "src/block.rs: add_code_pairs", "build/entity_generator.rs", "build/object_generator.rs", "build/table_generator.rs"]}
{"id": "C54", "title": "References lead to the items they were set to", "statement": "An entity or object can refer to other items (its owner, its material, the entities of a group ...). Setting such a reference to an item of the drawing and following it gives this item; adding to a list of references and following it gives the items from before and this one. An item that is not of the kind of the reference is refused, and following it never gives an item of another kind. The reference holds until the item is removed, and in a saved and loaded drawing it leads to the same item. (False for the entities of an IdBuffer or a SectionManager: after loading, the owner is one of them.)", "quantifier": "all reachable drawings, all references of all kinds of entities and objects, all items, all later operations", "why_tests_cant": "depends on all operations done before and after; the accessors are generated code and most of them have no tests", "anchors": ["build/xml_helpers.rs: methods_for_pointer_access", "src/drawing_item.rs: DrawingItem::handle", "src/drawing.rs: item_by_handle", "spec/EntitiesSpec.xml", "spec/ObjectsSpec.xml"]}
{"id": "C55", "title": "An interrupted save is noticed", "statement": "If writing a file stops after any number of bytes, loading what has been written gives an error. (False when it stops between two sections: all sections that were to follow are lost without an error. This is the only such place, up to the end of a line or the blanks before a code in a text file.)", "quantifier": "all drawings, text and binary files, all places at which writing can stop, all encodings given when loading", "why_tests_cant": "all crash points of all files; the tests load complete files or short fragments", "anchors": ["src/drawing.rs: save_internal, load_with_encoding, read_sections", "src/code_pair_iter.rs: TextCodePairIter, BinaryCodePairIter, new_code_pair_iter_from_reader", "src/code_pair_writer.rs", "src/helper_functions.rs: read_line, read_u8"]}
{"id": "C56", "title": "Loading does not depend on how the input is delivered", "statement": "A drawing can be loaded from any reader. The result depends only on the bytes, not on the portions in which the reader delivers them or on interrupted calls, and if the reader returns an error, loading returns an error, too. (False for DXB files: an error, even an interrupted call, while a scale factor is read goes unnoticed; the bytes of the factor are then read as items, and for common factors loading succeeds with an empty drawing. Elsewhere in DXB files interrupted calls make loading fail.)", "quantifier": "all readers: all sequences of portions, interruptions and errors, all files, all sizes of buffers", "why_tests_cant": "all schedules of reads and all places of errors; the tests read from memory", "anchors": ["src/drawing.rs: Drawing::load, load_with_encoding, load_file", "src/helper_functions.rs: read_line, read_u8", "src/code_pair_iter.rs: new_code_pair_iter_from_reader", "src/dxb_reader.rs: read_f"]}
{"id": "C57", "title": "Saving reports success only if the writer has taken everything", "statement": "A drawing can be saved to any writer. If saving reports success, the writer has taken the whole file, whether it takes few bytes at a time or interrupts calls; otherwise it has taken the beginning of the file, and an error is reported. A writer that takes all bytes in the end gets the whole file, and nothing is written if the drawing cannot be saved.", "quantifier": "all drawings, text, binary and DXB files, all writers: all sequences of partial writes, interruptions and errors", "why_tests_cant": "all schedules of writes and all places of errors; the tests write to memory", "anchors": ["src/drawing.rs: save, save_binary, save_dxb, save_internal", "src/code_pair_writer.rs", "src/dxb_writer.rs"]}
{"id": "C58", "title": "A file that was saved with success is complete", "statement": "If save_file reports success, the file has the content that was saved. (False: errors of the last write are ignored, so that success is reported although the end of the file is missing - or, for small files on a full disk, everything, and then also loading succeeds, with an empty drawing. And if a drawing cannot be saved, the old file has already been emptied.)", "quantifier": "all drawings, all disks: all sequences of partial writes, interruptions and errors", "why_tests_cant": "all places at which a disk can fail; the tests write small files to disks with space", "anchors": ["src/drawing.rs: save_file, save_file_binary, save_file_dxb, save_file_internal"]}
{"id": "C59", "title": "In loaded and built drawings names lead to something", "statement": "In every drawing that was loaded, from whatever file, or built from a new one, each entity's layer, line type, text style, dimension style and multiline style, each layer's line type, each block's layer and block record, the layers and line types of the entities in blocks, and the layers and views that objects name exist. This stays so under adding, normalizing, clearing and removing of blocks and entities. (False after removing a table entry or an object.)", "quantifier": "all files of all kinds and encodings, all orders of sections, all readers; all histories of operations", "why_tests_cant": "depends on the whole file or history; tables may be missing, come after what refers to them or hold other names", "anchors": ["src/drawing.rs: load_with_encoding, read_sections, add_entity, add_block, add_object, add_layer, normalize, ensure_*", "src/dxb_reader.rs: load", "build/table_generator.rs: read_specific_table"]}
{"id": "C60", "title": "Adding an item changes nothing else", "statement": "Adding an entity, a block, an object or a table entry stores the item as it was given, except for handles, after the items that were there. Apart from it, tables only get default entries at their ends for names that the item uses and that were missing, a multiline style is created if it was missing, and the next handle is advanced. The header, classes, thumbnail and all other items stay as they are, at their places.", "quantifier": "all drawings, all items", "why_tests_cant": "all states and items; the tests look only at what was added", "anchors": ["src/drawing.rs: add_entity, add_block, add_object, add_layer and the other add functions, ensure_*"]}
{"id": "C61", "title": "A drawing can be saved and loaded any number of times", "statement": "However often a drawing is saved and loaded, everything that its version can express is still there, with the same values, in the same order and with the same handles, and it can be saved and loaded once more, as long as there are handles left. (False: from R2007 on a viewport loses its own coordinate system at the second time; empty extension groups vanish level by level; block records and multiline styles multiply.)", "quantifier": "all numbers of repetitions, all drawings that can be loaded after saving (C42), all default headers of the loading programs", "why_tests_cant": "any number of steps; the tests save and load once, and what is lost at the second time comes back from the first", "anchors": ["src/drawing.rs: save, load", "build/table_generator.rs: generate_table_writer", "spec/TableSpec.xml: ViewPort has_own_ucs", "src/extension_data.rs"]}
{"id": "C62", "title": "The layout of a text file does not matter", "statement": "Loading a text file gives the same drawing, or the same error at the same line, whether lines end with a line feed or with a carriage return and a line feed, whatever spaces and tabs stand around codes and numbers, with or without a line end after the last line and with or without a UTF-8 byte order mark. In particular converting the line ends of a saved file changes nothing. (Blank lines do matter: the rest of the file can be ignored without an error.)", "quantifier": "all text files, valid or not, in all layouts, also mixed within a file; both encodings", "why_tests_cant": "all files and layouts; the tests have files in a few layouts", "anchors": ["src/helper_functions.rs: read_line", "src/code_pair_iter.rs: TextCodePairIter", "src/drawing.rs: load_with_encoding"]}
{"id": "C63", "title": "What a program builds from a new drawing comes back", "statement": "A drawing that a program makes from a new one, by adding, removing and changing items, clearing, normalizing and setting the header, classes and thumbnail, in any order and number, can be saved. Loading the file gives the items that the version can express, with their values, in their order, completed by what their names refer to; no handle occurs twice, and under the handle that an item was given when it was added, the item is found after loading.", "quantifier": "all histories of fewer than 2^59 steps (counting attributes, vertices and layer names), all items that can be written and read back, all versions but R11", "why_tests_cant": "all histories; the tests save drawings made by one or two steps", "anchors": ["src/drawing.rs: new, add_*, remove_*, *_mut, clear, normalize, save, load, item_by_handle"]}
{"id": "C64", "title": "Saving in a newer version loses nothing an older one keeps", "statement": "If a drawing is saved, and saved again after setting a newer version in its header, then loading the second file gives everything that loading the first one gives: under each handle the same item with at least the fields that came back from the older version, and the header variables, classes and thumbnail that did, except for what the format has given up in between. (What is given up: the elevation of entities from R13 on, text along an arc and remote text after R2000, some fields of viewports after R2004 and of field objects after R2007, some header variables, version numbers of classes from R14 on.)", "quantifier": "all pairs of versions, all drawings that can be loaded after saving in both versions, all items and fields", "why_tests_cant": "all pairs of versions and all fields; the tests save one field in one version", "anchors": ["src/drawing.rs: save, load", "build/entity_generator.rs, build/object_generator.rs, build/table_generator.rs, build/header_generator.rs: MinVersion, MaxVersion", "spec/*.xml"]}
{"id": "C65", "title": "Errors say where the file is wrong", "statement": "If a file cannot be loaded and the error names a place, then this is where the file is wrong. In a text file the place is a line number: either the line does not hold the number or the bytes that belong there, or a pair begins there that is not expected, and the code or the pair in the error is the one in the file. In a binary file it is the position of the byte or pair that is not expected.", "quantifier": "all text and binary files, valid or not, all errors of loading", "why_tests_cant": "all files and all ways to be wrong; the tests look at the places of a handful of errors", "anchors": ["src/dxf_error.rs: DxfError", "src/code_pair_iter.rs", "src/code_pair.rs", "src/helper_functions.rs: parse_*, verify_code, assert_or_err", "src/drawing.rs: load", "src/header.rs, src/x_data.rs, src/extension_data.rs, src/thumbnail.rs, build/table_generator.rs: errors"]}
{"id": "C66", "title": "What stands after the end of a file is ignored", "statement": "If a file is loaded and its last pair is the mark of the end of a file (code 0, EOF), then the same drawing is loaded when any bytes are appended to it, such as a rest of an older, longer file. This holds for text files with a line end after the mark, for binary files, for DXB files, and for every file that the library has saved. (Without the line end or the mark it does not hold.)", "quantifier": "all text, binary and DXB files that are loaded, all bytes after them, both encodings", "why_tests_cant": "all files and all continuations, including ones that look like more sections or are no text at all; the tests have none", "anchors": ["src/drawing.rs: load_with_encoding, load_from_iter, read_sections", "src/code_pair_iter.rs", "src/code_pair_put_back.rs", "src/dxb_reader.rs: load", "src/header.rs: read"]}
{"id": "C67", "title": "The order of the codes within an item does not matter", "statement": "If the pairs of an entity, object, table entry, block or class, or the variables of the header, stand in another order in a file, then loading gives the same drawing. Pairs with the same code, and variables with the same name, stay in their order among themselves. (Exceptions: vertices of light-weight polylines begin with code 10; two codes of a dimension style or a viewport can mean the same field; attributes, multiline texts, dimensions and a few kinds of objects have codes, such as markers of subclasses, that decide what other codes mean and must stay in their place, so that for example the text of a dimension is lost behind the marker of its subclass.)", "quantifier": "all files, all places in them, all runs of pairs of an item with codes below 1000 other than 0, 102 and 999 and the ones that must stay in their place, all reorderings, all kinds of items, all header variables", "why_tests_cant": "all orders of all codes of some hundred kinds of items; the tests have the codes in the order of the specification", "anchors": ["build/entity_generator.rs, build/object_generator.rs, build/table_generator.rs, build/header_generator.rs: generated readers", "src/entity.rs: read", "src/object.rs: read", "src/block.rs: read", "src/class.rs: read", "src/header.rs: read"]}
{"id": "C68", "title": "A section or a table may be given in several parts", "statement": "If the content of a section of classes, tables, blocks, entities or objects, or of a single table, is divided into two sections or tables of the same name, one right after the other, then loading gives the same drawing. Entities must not be cut off from the vertices, attributes and texts that belong to them. (It does not hold for the header, where a second section discards what the first one has set, and sections cannot be exchanged: a layer defined after an entity on it is there twice.)", "quantifier": "all files that are read up to the end of the section, all places between two items in it, all kinds of sections and tables; by repetition any number of parts", "why_tests_cant": "all files and all places to divide them; the tests have every section at most once", "anchors": ["src/drawing.rs: read_sections, read_section_item, read_entities, read_objects, load", "src/class.rs: read_classes", "src/entity_iter.rs", "src/object_iter.rs", "build/table_generator.rs: read_*"]}
{"id": "C69", "title": "The numbers in a saved file that announce how much follows are right", "statement": "Where the library writes how many values of a list follow in an entity or object (vertices of a lightweight polyline or a leader, knots and points of a spline, parameters of a multiline, clipping points of an image, and others), exactly that many values follow before the next item, for every length below the limit of the number's type. (It does not hold beyond that limit: from 32768 values on, numbers of 16 bits wrap around. The data of a macro project that was loaded is announced and not written. Every table announces 0 entries.)", "quantifier": "all entities and objects with any content, all versions that have them", "why_tests_cant": "all lengths of all lists, in particular very long ones, in all combinations with the other fields that use the same codes; the tests have lists of two or three values", "anchors": ["spec/EntitiesSpec.xml: WriteSpecificValue ... len()", "spec/ObjectsSpec.xml: WriteSpecificValue ... len()", "build/entity_generator.rs", "build/object_generator.rs", "src/entity.rs: add_code_pairs", "src/object.rs: add_code_pairs", "src/section_type_settings.rs", "build/table_generator.rs: add_*_code_pairs"]}
{"id": "C70", "title": "A value that is given twice counts as it was given last", "statement": "If a code occurs twice in an entity, object, table entry, block or class, or a variable twice in the header, then loading gives the same drawing, or the same error found later, as without the first of them. (This is so for codes that stand for one value. Codes of lists add to the list each time, a coordinate of a vertex of a light-weight polyline belongs to the vertex begun last, some codes such as markers of subclasses decide what other codes mean, and of a point in the header only those coordinates are replaced that are given again.)", "quantifier": "all files, all places in them, all kinds of items, all codes below 1000 other than 0, 102 and 999 and the excepted ones, all values of them and all pairs between them, all header variables", "why_tests_cant": "all codes of some hundred kinds of items with all values; the tests give every value once", "anchors": ["build/entity_generator.rs, build/object_generator.rs, build/table_generator.rs, build/header_generator.rs: generated readers", "src/entity.rs: read", "src/object.rs: read", "src/block.rs: read", "src/class.rs: read", "src/header.rs: read"]}
{"id": "C71", "title": "Attributes and vertices get handles of their own", "statement": "An attribute that is added to an insert with add_attribute, and a vertex that is added to a polyline with add_vertex, takes a handle from the drawing that nothing else in the drawing has or gets: no item, no other attribute or vertex, no end mark, and no attribute or vertex of another entity that is still being made. When the entity is added to the drawing it is stored with its attributes or vertices as they are, in their order and with their handles.", "quantifier": "All histories of operations on a new drawing and on any number of entities that are being made for it at the same time, and all entities, attributes and vertices.", "why_tests_cant": "The handles depend on everything that was done before with the drawing and with all other entities in the making; tests look at one entity and one order of calls.", "anchors": ["src/entity.rs: Insert::add_attribute, Polyline::add_vertex", "src/drawing.rs: Drawing::add_entity, Drawing::next_handle, Drawing::clear"]}
{"id": "C72", "title": "Changing one item changes only its part of the file", "statement": "If two drawings differ only in some of their entities, blocks, classes, entries of one table or objects, in their picture, or in one variable of the header, the files they are saved as differ only in the part that belongs to these: what stands before it and behind it is the same, byte for byte, and the part itself depends on nothing but what it belongs to, the version, and whether handles are written. Adding an entity whose layer, line type and styles are already there changes the file in two places: the next handle in the header, and the new entity after the others.", "quantifier": "All drawings that can be saved, all places in them, and all values that are put there; text and binary files of all versions.", "why_tests_cant": "That nothing else changes is a statement about all the rest of the file, for every drawing and every value; tests compare a few files.", "anchors": ["src/drawing.rs: Drawing::save, Drawing::save_binary, Drawing::code_pairs, Drawing::add_entity, Drawing::add_*_pairs", "build/header_generator.rs: generate_get_code_pairs_internal", "src/code_pair_writer.rs"]}
{"id": "C73", "title": "An item can be changed through its handle, and only this item changes", "statement": "item_by_handle_mut finds an item exactly when item_by_handle does, and the same one. Whatever is changed in the item through the reference it gives, the drawing then has the changed item in its place and all else as before; as long as the handle is kept, the changed item is found under it and the same items as before under all other handles; and the file that is saved changes only in the part of this item. Giving the item another handle that no other item has and that the drawing has given out before keeps all handles unique: the item is found under the new handle, nothing under the old one.", "quantifier": "All drawings, all handles, all kinds of items and all changes to them; for new handles: all drawings with unique handles, which all drawings have that are made by the operations of the library.", "why_tests_cant": "That nothing else changes, and that every other handle still leads to the same item, ranges over all drawings and all handles.", "anchors": ["src/drawing.rs: Drawing::item_by_handle, Drawing::item_by_handle_mut", "src/drawing_item.rs: DrawingItemMut::set_handle, DrawingItemMut::to_drawing_item"]}
{"id": "C74", "title": "A line weight means the same in the file as in the program", "statement": "A line weight is by block, by layer or a weight of its own, never two of these; what by_block() and by_layer() make is recognized as such; every line weight of the header comes back from files of version R2000 and later; and other programs, which read the number in the file as the format defines it, take it for what the library calls it.", "quantifier": "All line weights, all headers and all versions from R2000 on.", "why_tests_cant": "All 65536 values in every header; and the library's own tests write and read with the same constants, so that they cannot notice when these differ from the format.", "anchors": ["src/line_weight.rs: LineWeight", "spec/HeaderVariablesSpec.xml: CELWEIGHT, DIMLWD, DIMLWE"]}
{"id": "C75", "title": "What was added can be removed again", "statement": "If an item is added to a drawing and the last item of its list is removed, the remove operation returns the item that was added and the drawing is as before, but for the next handle, default entries for names the item refers to, and a multiline style it refers to. If all names were there already, only the next handle is different, in the drawing and in the file it is saved as.", "quantifier": "All drawings and all items that can be added: entries of all tables, entities, objects and blocks.", "why_tests_cant": "It must hold for every drawing and every item, whatever it refers to; tests try single cases.", "anchors": ["src/drawing.rs: Drawing::add_*, Drawing::remove_*, Drawing::ensure_*"]}
{"id": "C76", "title": "Files without handles do not depend on the handles", "statement": "Two drawings that differ only in the handles of their items are saved as the same text file and the same binary file when handles are not written (before R13 with handles not enabled), but for the next handle in the header. In DXB files handles never matter.", "quantifier": "All pairs of drawings that differ in handles of table entries, blocks, entities, attached attributes and vertices, and end marks, with any objects; all versions before R13.", "why_tests_cant": "Every kind of item has its own statements for writing; a handle that slips into one of them shows only for that kind and that version.", "anchors": ["src/drawing.rs: Drawing::save, Drawing::save_dxb", "src/entity.rs: Entity::add_code_pairs", "src/block.rs: Block::add_code_pairs", "src/dxb_writer.rs: DxbWriter::write"]}
{"id": "C77", "title": "Simple shapes mean in the file what they mean in the program", "statement": "A line, point, circle, arc, 3D face, solid, trace, vertex, ray, construction line or ellipse is written with its type and with each part of its geometry under the code the DXF reference gives it, once. An entity that is read with such codes, in any order and among any other fields, has that geometry. A shape made with its constructor has the geometry that was given.", "quantifier": "All points and numbers, all other fields, all versions that have the entity, with and without handles; for reading all orders and all other codes.", "why_tests_cant": "A swapped pair of codes or arguments is undone when the same program reads the file again, so round trips do not show it; tests look at a few literal files.", "anchors": ["src/entity.rs: Line::new, Arc::new, Circle::new, Face3D::new, ModelPoint::new, Solid::new, Trace::new, Vertex::new, Entity::add_code_pairs, Entity::read", "spec/EntitiesSpec.xml"]}
{"id": "C78", "title": "Texts and block references mean in the file what they mean in the program", "statement": "A text or a block reference is written with its place, its words or the name of the block, its height, scales and angles under the codes the DXF reference gives them. A scale or an angle is left out just when it equals what the reference says a missing one means. Reading such codes, in any order and among other fields, gives these values, with that meaning for those left out.", "quantifier": "All points, numbers and strings, all other fields, all versions, with and without handles; for reading all orders, all other codes, and all choices of codes left out.", "why_tests_cant": "A default that differs between the writer and the reference is undone when the same program reads the file again; tests look at a few literal files.", "anchors": ["src/entity.rs: Entity::add_code_pairs, Entity::read", "spec/EntitiesSpec.xml: Text, Insert"]}
{"id": "C79", "title": "Layers mean in the file what they mean in the program", "statement": "A layer is written with its name, its line type and its color under the codes the DXF reference gives them, the color negative just when the layer is off. A layer that is read with such codes, in any order and among other fields, has these values. A layer that is frozen or locked in a file stays so when the file is read and written again.", "quantifier": "All names, line types, positive colors, both states, all versions, with and without handles; for reading all orders and all other codes; all flags.", "why_tests_cant": "What the sign of a number means, and fields the program does not have, are not seen by tests that write and read with the same program.", "anchors": ["spec/TableSpec.xml: Layer", "src/color.rs: Color::writable_color_value", "src/helper_functions.rs: read_color_value", "src/table.rs: Layer"]}
{"id": "C80", "title": "The corners of polylines mean in the file what they mean in the program", "statement": "A light polyline is written with its corners in their order, each beginning with its x (code 10) and followed by its y (20), its widths (40 and 41) and its bulge (42), where a width or bulge of 0 may be left out. A light polyline that is read with corners described like this, with their codes in any order after the x and other fields before and between them, has exactly these corners.", "quantifier": "All numbers of corners, all coordinates, widths and bulges, all versions since R14, with and without handles; for reading all orders within a corner and all other codes.", "why_tests_cant": "Which width or bulge goes with which corner depends on where its code stands among those of all corners; tests that write and read with the same program do not see codes swapped in both.", "anchors": ["src/entity.rs: LwPolylineVertex", "src/entity.rs: Entity::apply_custom_reader_lwpolyline", "spec/EntitiesSpec.xml: LwPolyline"]}
{"id": "C81", "title": "Text styles and line types mean in the file what they mean in the program", "statement": "A text style is written with its name, heights, width factor, angle and fonts, and a line type with its name, description, length and all its dashes in their order, under the codes the DXF reference gives them. A text style or line type that is read with such codes, in any order and among other fields, has these values. A style for vertical text stays one when the file is read and written again.", "quantifier": "All names and numbers, all numbers of dashes, all versions, with and without handles; for reading all orders and all other codes; all flags.", "why_tests_cant": "Tests that write and read with the same program do not see codes that are swapped in both, nor what the program has no field for.", "anchors": ["spec/TableSpec.xml: Style", "spec/TableSpec.xml: LineType", "build/table_generator.rs: generate_table_writer", "src/table.rs: Style", "src/table.rs: LineType"]}
{"id": "C82", "title": "Settings mean in the file what they mean in the program", "statement": "The base point and extents of the drawing, the scale of line types, the default height of texts, the current text style, layer and line type, and whether lines are orthogonal and areas filled, are each written once, in the variable and under the codes the DXF reference gives them. A header that is read with such variables, in any order and among other variables, has these settings.", "quantifier": "All values of these settings and of all others, all versions; for reading all orders and all other variables, known or not.", "why_tests_cant": "Variables whose names or codes are swapped in both reader and writer, or that overwrite each other's settings, need files of other programs to be seen; there are hundreds of variables.", "anchors": ["spec/HeaderVariablesSpec.xml", "build/header_generator.rs", "src/header.rs: Header::read"]}
{"id": "C83", "title": "Splines mean in the file what they mean in the program", "statement": "A spline is written with its degree, knots, weights, control points and fit points under the codes the DXF reference gives them, the lists in their order and the points as x, y and z. A spline that is read has the degree, the knots, the weights and the points its codes give, whatever the order of the different codes.", "quantifier": "All splines with lists of any length and all versions that have splines; for reading all orders and all other fields.", "why_tests_cant": "Lists whose codes are swapped in both reader and writer survive round trips, and points are put together from separate lists of coordinates, which goes wrong only for some lengths and orders.", "anchors": ["spec/EntitiesSpec.xml: Spline", "src/helper_functions.rs: combine_points_3", "build/entity_generator.rs"]}
{"id": "C84", "title": "The layer, line type, color and visibility of every entity mean in the file what they mean in the program", "statement": "Whatever the type of an entity, its layer, line type, color, scale of the line type, visibility and whether it is in paper space are written under the common codes of the DXF reference, at most once, and left out only where the value is the one that holds without the code. An entity that is read has the values its codes say, and the values the format prescribes for codes that are not there.", "quantifier": "All entities of all types with all values of their other fields and attached entities, all versions since R13; for reading all orders and all other fields.", "why_tests_cant": "Each of about forty types has a reader and a writer of its own that can take a common code for one of its own fields, in some states only; only a look at all types and states shows that none does, or which one does.", "anchors": ["spec/EntitiesSpec.xml: Entity", "build/entity_generator.rs: generate_try_apply_code_pair", "src/entity.rs: Entity::read, Entity::add_code_pairs"]}
