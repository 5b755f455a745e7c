# Formal model of ixmilia/dxf-rs

The Rust crate reads and writes AutoCAD drawings (DXF text, DXF binary, DXB).
This directory holds a Lean 4 model of that code and machine-checked proofs of
the properties listed in `properties.jsonl`.

## Layout

* `lean/Verif/Model/*.lean` - the model: executable, total functions.  Every
  definition cites the file and lines of `/repo` it models and says where it
  simplifies.
* `lean/Verif/Data/*.lean` - the XML tables of `/repo/spec` as Lean data
  (header variables, tables, entities, objects, flags, enumerations), made by
  the scripts in `tools/`.
* `lean/Verif/Spec/*.lean` - small, independent specifications used in the
  statements of the properties.
* `lean/Verif/Lemmas/*.lean` - helper lemmas.
* `lean/Verif/Props/*.lean` - the property theorems, each with an `example`
  showing a non-trivial case meeting its hypotheses.
* `seeded/LOG.jsonl` - mutation experiments.
* `MANIFEST.json` - property -> theorems.
* `tools/` - scripts: translation of the XML specs, `properties.jsonl`,
  `MANIFEST.json`, mutation runs.

## Modelling conventions

* Rust `String` = `List Char` (Lean `Char` = Unicode scalar value = Rust
  `char`).  `str!"..."` is a macro for an explicit character list, so that the
  kernel can evaluate it.
* `u8` = `BitVec 8`; `i16`/`i32`/`i64`/`u64` = `BitVec` (two's complement,
  `toInt` is the numeric value); `f64` = its 64-bit pattern (`F64`), `f32`
  likewise (`Model/Single`).  The value of a finite double is an integer
  multiple of 2^-1074; formatting with `{:.12}` (round half to even), parsing
  (correctly rounded), arithmetic, truncation and conversion to and from `f32`
  are defined on exact integers.  Simplification: a NaN result of arithmetic is
  one fixed NaN; the sign and payload of a NaN made by the machine are not
  modelled.
* `Result<T, DxfError>` = `Except DxfErr T`.  Error payloads that are only
  messages are dropped; offsets are kept.
* Rust panics (arithmetic overflow in debug builds, slice index, `unwrap`) are
  explicit `panic` results.
* `&mut self` methods return the new value.
* A reader `fn(&mut CodePairPutBack) -> DxfResult<T>` is a function from the
  remaining pairs to a result *and* the remaining pairs (`Rd`), because some
  callers drop an error and read on.
* Loops over a reader are structural recursion on the remaining input, or take
  fuel; the result of running out of fuel is a special error `outOfFuel`, and
  theorems show where it cannot occur (C12, C45, C47).  Loops of the Rust code
  that really do not end are shown to give `outOfFuel` for every fuel.
* Generated code: a struct made by `build/*.rs` from an XML specification is a
  record of fields described by declarations (`Decl`), its reader a list of
  match arms (`Arm`) and its writer a list of guarded commands (`GCmd`).  The
  interpreters of these lists (`Model/Record`, `Entry`, `Tables`, `Header`,
  `EKind`, `OKind`) model the generators; the lists themselves are data.
* For most properties input is a finite byte list and output is a byte list.
  `Model/Io` models readers and writers that work in portions, are interrupted
  and fail, as lists of the answers they give (an empty list means the end of
  the input, or a writer that takes everything); C56-C58 connect the two.
* Non-determinism: the time and the random UUIDs in `Header::default()` are the
  parameter `h0` (`Header.Fresh` says what is fixed about it); the order of a
  `HashSet` in `normalize` is the parameter `order`.  Theorems hold for all of
  them.
* External crates: `encoding_rs` (`decode` with BOM sniffing for WINDOWS-1252
  and UTF-8 and the UTF-16 override), `byteorder`, `chrono` (calendar dates and
  the Julian-date arithmetic, `Model/Date`), `uuid` (text form, `Model/Uuid`),
  `enum_primitive` and the Rust standard library (`trim`, integer and float
  parsing and formatting) are modelled explicitly from their documented
  behaviour.  `image` is a parameter (`ImageCodec`: a pair of functions), with
  "loading undoes saving" as a hypothesis where needed.

## Trusted base

* Lean 4.33.0 kernel.
* Axioms: at most `propext`, `Classical.choice`, `Quot.sound` (checked with
  `#print axioms` for every theorem in `MANIFEST.json`).
* The reading of the Rust source, recorded by the citations in the model, and
  the scripts that translate the XML tables.
* The behaviour of the Rust standard library and of the crates above as stated.

## What is modelled

| code | model |
|------|-------|
| `code_pair*.rs`, `helper_functions.rs`, `code_pair_iter.rs`, `code_pair_writer.rs`, `code_pair_put_back.rs`, `expected_type.rs` | Basic, Escape, Num, Hex, Encoding, TextCodec, BinCodec, PutBack, ExpectedType, Rd |
| `handle.rs`, `color.rs`, `line_weight.rs`, `point.rs`, `vector.rs`, `transformation_matrix.rs`, `lw_polyline_vertex.rs`, enumerations, flags | Small, Color, LineWeight, Record, Data/Enums, Data/Flags, Version |
| `extension_data.rs`, `x_data.rs` | ExtData, XData |
| `header.rs`, generated header code, dates, UUIDs | Header, Date, Uuid, Data/Header |
| generated table code, `table.rs` | Entry, Tables, Data/Tables |
| generated entity code, `entity.rs`, `entity_iter.rs` | EKind, Entities, Data/Entities |
| generated object code, `object.rs`, `object_iter.rs` | OKind, ObjectParts, Objects, Data/Objects |
| `class.rs`, `block.rs` | Class, Block |
| `drawing.rs` (new, add, remove, clear, normalize, look-up, load, save) | Drawing, File, Bytes |
| `drawing_item.rs`, the accessors of references generated by `build/xml_helpers.rs` | Drawing, Refs, ItemMut |
| loading from readers, saving to writers and files (`std::io`, `BufWriter`) | Io |
| `thumbnail.rs` | Thumbnail |
| `dxb_reader.rs`, `dxb_writer.rs`, `dxb_item_type.rs` | Single, Dxb |

Not modelled: `load_file` (which opens a file and calls `load`), errors when a
file is closed, serde serialization (feature `serialize`), the text
of error messages, `Debug`/`Display` output other than that of pair values,
the `DxfError` conversions, encodings other than WINDOWS-1252 and UTF-8 passed
to `load_with_encoding`.

## Per property

"Violations" are proved as theorems with concrete or general witnesses; the
part of the property that does hold is proved under the suffix `_partial`.

| id | modelled | how it is proved | violations found |
|----|----------|------------------|------------------|
| C01 | `escape_control_characters`, `un_escape_string` | induction over the string | |
| C02 | `escape_unicode_to_ascii`, `un_escape_ascii_to_unicode` | state machine on 7-character blocks | text with a backslash, U+001C or beyond the BMP is damaged |
| C03 | `Handle::as_string`, `CodePair::as_handle`, `parse_hex_string` | positional numerals | longer texts are cut silently |
| C04 | `parse_hex_string`, `{:02X}` | induction over bytes | |
| C05 | integer formatting and parsing | numeral round trip; i16 through exact float rounding | |
| C06 | `format_f64`, `parse_f64` | exact integers scaled by 2^1074 and 10^12 | small values become 0 |
| C07 | `write_ascii_code_pair`, `read_line`, `TextCodePairIter` | induction over pairs | leading BOM lost; non-ASCII text before `$ACADVER` |
| C08 | `write_binary_code_pair`, `BinaryCodePairIter` | same, width detection at the first pair | non-ASCII text, chunks of 256 bytes, Booleans beyond a byte |
| C09 | both | corollary of C07, C08 | |
| C10 | `CodePairPutBack` | refinement to a comment-free list | |
| C11 | `ExpectedType::new`, `assert_*` | the whole table decided and lifted; invariant of both readers | |
| C12 | both pair readers | consumption lemma | |
| C13 | `Drawing` add/remove/clear/normalize | invariant over histories | handles of attached entities that had been set before |
| C14 | `item_by_handle(_mut)` | from C13 | |
| C15 | `remove_item` | refinement to list deletion | |
| C16 | `normalize` | fixpoint | the view port `*ACTIVE` of a new drawing changes the second time |
| C17 | `normalize` | sorted and permutation | |
| C18 | `ensure_*` | postcondition of each operation | block records duplicated; names used inside blocks, by attributes and by multilines |
| C19 | header code | interpreter lemmas, conditions on the table by `decide +kernel` | `$DIMATFIT` never read; lossy conversions; a date that panics |
| C20 | table code | interpreter lemmas | owners, third coordinates, flags, colour -32768 |
| C21 | entity code | staged interpreter lemmas | fields in `EName.lost`, rotated dimensions before R13 |
| C22 | object code | same, own readers one by one | fields in `OName.lost`, lists in `OName.listsBack`, irregular objects |
| C23 | `class.rs` | induction | counts beyond i32, a class named ENDSEC |
| C24 | `block.rs` | induction | extended data lost, flags cut |
| C25 | `extension_data.rs`, `x_data.rs` | mutual induction over trees | empty groups, nested 102 pairs, extended data before R2000 |
| C26 | `collect_entities`, `add_post_code_pairs` | induction over the entities | inserts with attributes from R13 on |
| C27 | `swallow_*`, `Entity::read` | locality of every reader (`Loc`, `Alike`): what it does depends only on what it consumes | code bug: entries of an unknown type in a table, items between blocks and pairs between sections are errors, items between classes become classes (`C27_*_violated`) |
| C28, C29 | version order and texts, generated predicates | finite tables decided whole, lifted | R11 is read as R12 |
| C30, C31, C32, C38, C43 | colours, layer colour sign, flag words, dimension type, proxy words | `omega`, bit extensionality, all words | colour 0 and -32768; overlapping proxy setters |
| C33, C47 | DXB reader and writer | induction over items; exact f32 rounding; locality of the reader's errors | blocks, bulges and widths, names of layers beyond Latin-1 |
| C48 | bytes → pairs → drawing, the change of encoding in the middle (`loadUntil`, `switched`) | readers are blind to the places of pairs (`Lemmas/Blind*`); C07, C08, C42 | what C42, C07 and C08 exclude |
| C49 | all writers | table checks by the kernel, lifted to all records; traversal of everything written | hours of sun studies (false: `C49_violated`, `C49_unreadable`) |
| C50 | DXB reader | items and their meaning specified separately (`Spec/DxbItems`); the reader's state is the specified pen; induction over items | words are scaled (false: `C50_violated`, `C50_open`, `C50_mode`); vertices outside polylines |
| C51 | all readers of the model | every reader keeps the invariant 'no panic, and at least 18 unused handles for each item left' on streams without the listed causes (`Spec/Harmless`); one witness file for each cause | the causes themselves (false: `C51_color` … `C51_picture`); exhaustion of memory (such as data tables with huge numbers of rows) is not modelled; the image library is assumed not to panic |
| C52 | all writers of the model | which writers can fail: an equivalence with `Savable` (`Spec/Saving`) | irregular data tables and thumbnails (false: `C52_loaded`); for errors of the output stream see C57 |
| C53 | as C41, C42; `item_by_handle` | each written item has one successor with its handle (`Lemmas/Lookup`), and handles below the next one come from the file only | blocks before R13 (false: `C53_blocks`); drawings that C42 excludes |
| C54 | `Model/Refs`: the generated accessors, as a table of fields and types and two generic functions | lookup by handle (C14), fields of type handle or list of handles, C53 for saving | references that are not read back (`C54_buffer`, C22) |
| C55 | `loadBytes` on the first bytes of `saveText`/`saveBinary` | the items read from a prefix are those of the whole file, then at most one item of a torn pair (`Torn`), then the end; loading stops with an error there unless no section is open (as C36); torn words can be shorter words, but not `ENDSEC` or `EOF` before their end | places between sections (`C55_violated`) |
| C56 | `Model/Io`: `read_line`, `read_u8`, `read_to_end` on a list of answers | each reading function gives what its counterpart on bytes gives, or the error; for DXB files the reader is compared with one without errors (`Whole`) | errors while a DXB scale factor is read (`C56_violated`) |
| C57 | `Model/Io`: `write_all` on a list of answers | induction over the answers and over the pieces that are written | |
| C58 | `Model/Io`: `BufWriter` | what was given to the buffered writer is what the disk has taken and the buffer; at the end the buffer is lost if the disk fails | the last bytes, for every drawing (`C58_violated`, `C58_lost`); the old file (`C58_destroyed`) |
| C59 | all of loading and the operations | what is added comes with what it refers to, and nothing is taken away (`Brings`), by induction over the sections of a stream or over a history | removing table entries and objects (`C59_violated`); styles of entities in blocks (C18) |
| C60 | `Model/Drawing` | additional table entries are default entries for names in `Needs` (`Only`, with `Grows` of C18) | |
| C61 | `load`, `codePairs` repeated (`Cycles`) | the relation `Kept` is transitive, because conditions of write statements depend only on what comes back (`Steady`); `Lasting` is invariant; a measure for the handles needed | viewports' coordinate systems from R2007 on (`has_own_ucs` is written only up to R2004 but is the condition for the others), nested empty extension groups, growing block records |
| C62 | `readLine`, `TextIter`, `fileItems`, `loadBytes` | what the iterator yields is the same item by item for two layouts (`Relaid`); UTF-8 decoding is inverted by encoding, so a carriage return at the end is one character | - (blank lines, carriage returns within text and UTF-16 do matter: `C62_blank`, `C62_return`, `C62_utf16`) |
| C63 | `Model/Drawing`, `load`, `codePairs` | all histories (`Made`) keep: everything in the drawing is `Fair`, handles are `Safe`, the next handle and the needed handles are bounded by what was done; then C41, C42, C48, C53 apply | items, headers and classes that do not come back; handles set by the program (`handle` is a public field), entities pushed into blocks in place |
| C64 | `Model/Drawing`, all writers | for every kind and field: what one version writes is written by the newer ones up to the last one that has the field (`until`, tables checked by evaluation, statements that take turns by hand); combined with C42 and C53 for both files | lists inside of items, extended data of entities with attached ones; what the format gives up (`C64_elevation`, `C64_kinds`) |
| C65 | `Model/Basic` errors, `TextIter`, `Model/File` | `Blamed`: every error of a reader names no place, is an error of the reader of pairs or names the place of a pair that was read (`Tells`, one lemma per reader); the offsets of the text reader are line numbers (`Stands`, `linesOf`) | binary files, where it is false (`C65_violated`, `C65_drift`, `C65_byte`); DXB files |
| C66 | `TextIter`, `BinIter`, `loadBytes`, `Dxb.loop` | readers are local: what has been read up to a pair does not depend on what follows it (`Local`, `Loc`), so the mark is met in the same state; the iterators yield the same items from longer bytes (`items_more`), also where the encoding changes (`readSectionsUntil_after`) | - (`C66_needed`: the mark and its line end are needed) |
| C67 | `EName.step`, `OName.step`, `Entry.apply`, `Class.apply`, `setHeaderValue` | two steps with different codes commute whenever the first order succeeds (`Swaps`): checked for the generated tables of arms by the kernel (`clashing`, with the list of exceptions `clashes`) and lifted by `Act.apply_swap`; a list of commuting steps can be sorted (`foldAct_reordered`); the places in a file as for C27 | objects with nested parts (`OName.nested`), codes that decide what others mean (`fixed`), codes inside of groups and extended data; `C67_needed` |
| C68 | `readSections`, `readItems`, `readTable`, `readEntitySection`, `readObjectSection`, `Class.readAll` | the rounds of the loops (`Steps`) lead to the place of the division whatever stands behind it (`Steps.move`), so the first part ends there with the drawing of that moment and the second part goes on with it (`parts_load`, `list_parts`); what is read into a list does not depend on what is in it (`Adds`); attaching vertices and attributes divides at `Separate` places (`collect_append`) | the header (`C68_header_violated`), the thumbnail, which is a single item, and the order of sections (`C68_order_violated`) |
| C69 | generated write statements, `Entity.post`, `Object.tail`, `OName.mid`, `OName.mid2`, `SectionType.pairs`, `TableKind.pairs` | the list of statements is split at the number (`emitAll_split`); of the statements after it only those that mention the announced code count (`times_emitAll`), and none writes code 0 (`emitAll_ne`), so up to the next item there are as many pairs as list elements (`follow_append`) | numbers beyond the limit of their type (`C69_violated`), macro projects (`C69_data_violated`), tables (`C69_table_violated`); numbers that are fields of their own, and numbers of bytes or characters |
| C70 | `EName.step`, `OName.step`, `Entry.apply`, `Class.apply`, `setHeaderValue` | a step of an arm that sets a field, a coordinate or a part of the last vertex is forgotten after a second one (`Covers`): checked for the generated tables of arms by the kernel (`FRead.single`, with the list of exceptions `lists`); the steps between commute with the first one (C67) or cover it (`foldAct_drop`); the places in a file as for C27 | as for C67; codes of lists; `C70_needed` |
| C71 | `Drawing.addAttribute`, `Drawing.addVertex` (Model/Drafts), `Drawing.addEntity` | invariant over histories of a drawing together with entities in the making (`Desk`): every handle is counted at most once; an entity whose parts have handles keeps them when it is stored (`addEntity_kept`) | clearing meanwhile, copies: `C71_cleared`, `C71_copied` |
| C72 | `codePairs` and all that it calls, `saveText`, `saveBinary`, `Drawing.addEntity` | `Localized`: the part is a function of the item alone, the rest is the same; for the header: at most one command is active for a field, the others do not look at it (`header_apart_cmds`, `headerPairs_part`) | fields 45, 46; version and handles_enabled; sections that appear with their first item |
| C73 | `Drawing.itemByHandleMut`, `Drawing.read`, `Drawing.write`, `Slot.setHandle` (Model/ItemMut) | places are found by the lists of handles alone (`mut_write`); a change replaces one element (`read_write`, `read_ne`), and one handle in the list of all (`handles_write`); the file by C72 | - |
| C74 | `LineWeight` (Model/LineWeight), `Header.pairs`, `Header.read` | the number is written as it is (`header_part` of C72) and read back (C19); compared with the meaning of the numbers in the DXF reference | by_block and by_layer are exchanged: `C74_violated` |
| C75 | `Drawing.add*`, `Drawing.remove*` | from what adding changes (C60, `addEntity_plain`) and `removeItem_last`; the file by `header_part` of C72 | records of blocks: `C75_violated` |
| C76 | `Drawing.codePairs`, `Drawing.saveDxb` | by computation for each kind of item, then along the lists; `header_part` of C72 | – |
| C77 | `EName.pairs`, `nextEntity`, the constructors of src/entity.rs | the statements that mention a code are found by computation for each kind (`withCode_pairs`); for reading, each number of a point is a place (`Spot`) that one arm sets and no other touches, by induction over the pairs (`fold_own`) | extension groups, comments and extended data among the codes |
| C78 | `EName.pairs`, `nextEntity` for TEXT and INSERT | as C77; optional numbers by `emit_opt` and `opt_read`, strings by `str_read` | attributes, extension groups, comments and extended data among the codes; styles, justification, arrays |
| C79 | `TableKind.itemPairs`, `TableKind.read` for LAYER, `readLayerColor`, `layerColorValue` | as C77, with `entry_fold` for table entries; the color by C31. **Bug**: code 70 of layers is ignored and written as 0, so frozen and locked layers are thawed and unlocked (`C79_violated`) | extension groups, comments and extended data among the codes |
| C80 | `Ent.lwPolylineArms`, `Ent.lwPolylineCmds`, `LwVertex.pairs`, `LwVertex.setField` | as C77; reading by induction over the corners and, within a corner, over its pairs, with the last vertex as the state | extension groups, comments and extended data among the codes; −0.0 |
| C81 | `TableKind.itemPairs`, `TableKind.read` for STYLE and LTYPE | as C79; the dashes by induction over the pairs. **Bug**: code 70 of text styles is ignored and written as 0, so vertical text is lost (`C81_violated`) | extension groups, comments and extended data among the codes; complex line types |
| C82 | `Header.read`, `Header.body`, `headerLoop`, `setHeaderValue` for ten settings | the loops as folds over variables and pairs; other variables leave a field as it is; by induction over the variables | the other variables; comments |
| C83 | `EntityType::Spline` read and written: degree, knots, weights, control points, fit points | each list as a fold that other codes leave alone, by induction over the pairs; the coordinates collected separately and combined at the end | tolerances, tangents, flags, normal; comments and extension data among the fields |
| C84 | the common fields of all entity types, in all states of their readers: layer, line type, color, scale, visibility, space | all arms and statements of the types are shown to leave the common codes and fields alone; then by induction over the pairs | MTEXT (`C84_violated`: code 48 is taken for the width of a column); reading of dimensions; extension groups |
| C34 | `thumbnail.rs` | arithmetic, induction over chunks | palettes, negative header sizes |
| C35 | `code_pairs` | every writer emits no bracket | brackets in extension groups, XRecords |
| C36 | `read_sections` | locality: a reader that consumed all of a prefix does the same on it with an end | a cut between two sections |
| C37 | iterators | `Good` readers report the first error | errors inside entities and objects end the list silently |
| C39, C40 | matrices, coordinate lists | structural, induction | the twelve-number form is transposed |
| C41, C42 | loading what was saved | composition of C19-C26, C34 with the operations of C13 (`assemble`) | block records and multiline styles grow; handles without `$HANDSEED`; handles of vertices |
| C44 | dates | exact arithmetic | midnight, years before 1900, panic after the year 262142 (`C44_limits`, `C44_last`) |
| C45 | all loops of the loader | fuel monotonicity | blocks and section settings cut off: loading never ends |
| C46 | owners | invariant | owners added later |

The manifest has the names of the theorems and the exact scope of each.

## Mutation tests

`tools/mutate.py` copies the project to a scratch directory, applies one edit
of the kind a programming error would make to a definition of the model,
rebuilds, and logs which theorems fail.  An edit after which everything still
builds means that a theorem is too weak (or that the edit changes nothing
observable); the theorems strengthened because of it are named in the log.

