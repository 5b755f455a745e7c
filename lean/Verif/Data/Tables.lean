import Verif.Model.Record
import Verif.Data.Enums

/-! Generated from spec/TableSpec.xml by tools/gen_specs.py; do not edit. -/

set_option maxRecDepth 4000

namespace Dxf

/-- Fields of `AppId`. -/
def Tables.appIdDecls : List Decl := [
  /- 0 name -/ ⟨.str, ([] : Str)⟩,
  /- 1 handle -/ ⟨.handle, (0#64 : Handle)⟩,
  /- 2 __owner_handle -/ ⟨.handle, (0#64 : Handle)⟩]

/-- Match arms of the reader of `AppId`. -/
def Tables.appIdArms : List (Arm Tables.appIdDecls) := [
  ⟨2, .on 0 (.set .str)⟩,
  ⟨5, .on 1 (.set .handle)⟩,
  ⟨330, .on 2 (.set .handle)⟩]

/-- The statement for the handle of `AppId` (build/table_generator.rs:386-389). -/
def Tables.appIdHead (writeHandles : Bool) : List (GCmd Tables.appIdDecls) :=
  [{ cmd := .field 1 (.one 5 .handle), cond := fun _ => writeHandles }]

/-- Write statements of `AppId` (build/table_generator.rs:397-). -/
def Tables.appIdCmds : List (GCmd Tables.appIdDecls) := [
  { cmd := .const (.newStr 100 str!"AcDbSymbolTableRecord") },
  { cmd := .const (.newStr 100 str!"AcDbRegAppTableRecord") },
  { cmd := .field 0 (.one 2 .str) },
  { cmd := .const (.newI16 70 0#16) }]

/-- Fields of `BlockRecord`. -/
def Tables.blockRecordDecls : List Decl := [
  /- 0 name -/ ⟨.str, ([] : Str)⟩,
  /- 1 handle -/ ⟨.handle, (0#64 : Handle)⟩,
  /- 2 __owner_handle -/ ⟨.handle, (0#64 : Handle)⟩,
  /- 3 __layout_handle -/ ⟨.handle, (0#64 : Handle)⟩,
  /- 4 insertion_units -/ ⟨.enum E.units, (⟨0, by decide⟩ : Fin (List.length E.units))⟩,
  /- 5 explodability -/ ⟨.bool, (true : Bool)⟩,
  /- 6 scalability -/ ⟨.bool, (true : Bool)⟩,
  /- 7 __bitmap_preview_data -/ ⟨.list .bytes, ([] : List (List Byte))⟩]

/-- Match arms of the reader of `BlockRecord`. -/
def Tables.blockRecordArms : List (Arm Tables.blockRecordDecls) := [
  ⟨2, .on 0 (.set .str)⟩,
  ⟨5, .on 1 (.set .handle)⟩,
  ⟨330, .on 2 (.set .handle)⟩,
  ⟨340, .on 3 (.set .handle)⟩,
  ⟨70, .on 4 (.set (.enumI16 E.units ⟨0, by decide⟩))⟩,
  ⟨280, .on 5 (.set .asBool)⟩,
  ⟨281, .on 6 (.set .asBool)⟩,
  ⟨310, .on 7 (.push .bytes)⟩]

/-- The statement for the handle of `BlockRecord` (build/table_generator.rs:386-389). -/
def Tables.blockRecordHead (writeHandles : Bool) : List (GCmd Tables.blockRecordDecls) :=
  [{ cmd := .field 1 (.one 5 .handle), cond := fun _ => writeHandles }]

/-- Write statements of `BlockRecord` (build/table_generator.rs:397-). -/
def Tables.blockRecordCmds : List (GCmd Tables.blockRecordDecls) := [
  { cmd := .const (.newStr 100 str!"AcDbSymbolTableRecord") },
  { cmd := .const (.newStr 100 str!"AcDbBlockTableRecord") },
  { cmd := .field 0 (.one 2 .str) },
  { cmd := .const (.newI16 70 0#16) },
  { cmd := .field 3 (.one 340 .handle), min := (some .r2000) },
  { cmd := .field 4 (.one 70 (.enumI16 E.units)), min := (some .r2007) },
  { cmd := .field 5 (.one 280 .asI16), min := (some .r2007) },
  { cmd := .field 6 (.one 281 .asI16), min := (some .r2007) },
  { cmd := .field 7 (.many 310 .bytes), min := (some .r2000) }]

/-- Fields of `DimStyle`. -/
def Tables.dimStyleDecls : List Decl := [
  /- 0 name -/ ⟨.str, ([] : Str)⟩,
  /- 1 handle -/ ⟨.handle, (0#64 : Handle)⟩,
  /- 2 __owner_handle -/ ⟨.handle, (0#64 : Handle)⟩,
  /- 3 dimensioning_suffix -/ ⟨.str, ([] : Str)⟩,
  /- 4 alternate_dimensioning_suffix -/ ⟨.str, ([] : Str)⟩,
  /- 5 first_arrow_block_name -/ ⟨.str, ([] : Str)⟩,
  /- 6 second_arrow_block_name -/ ⟨.str, ([] : Str)⟩,
  /- 7 dimensioning_scale_factor -/ ⟨.f64, (⟨0x3ff0000000000000#64⟩ : F64)⟩,
  /- 8 dimensioning_arrow_size -/ ⟨.f64, (⟨0x3fc70a3d70a3d70a#64⟩ : F64)⟩,
  /- 9 dimension_extension_line_offset -/ ⟨.f64, (⟨0x3fb0000000000000#64⟩ : F64)⟩,
  /- 10 dimension_line_increment -/ ⟨.f64, (⟨0x3fd851eb851eb852#64⟩ : F64)⟩,
  /- 11 dimension_extension_line_extension -/ ⟨.f64, (⟨0x3fc70a3d70a3d70a#64⟩ : F64)⟩,
  /- 12 dimension_distance_rounding_value -/ ⟨.f64, (⟨0x0000000000000000#64⟩ : F64)⟩,
  /- 13 dimension_line_extension -/ ⟨.f64, (⟨0x0000000000000000#64⟩ : F64)⟩,
  /- 14 dimension_plus_tolerance -/ ⟨.f64, (⟨0x0000000000000000#64⟩ : F64)⟩,
  /- 15 dimension_minus_tolerance -/ ⟨.f64, (⟨0x0000000000000000#64⟩ : F64)⟩,
  /- 16 generate_dimension_tolerances -/ ⟨.bool, (false : Bool)⟩,
  /- 17 generate_dimension_limits -/ ⟨.bool, (false : Bool)⟩,
  /- 18 dimension_text_inside_horizontal -/ ⟨.bool, (true : Bool)⟩,
  /- 19 dimension_text_outside_horizontal -/ ⟨.bool, (true : Bool)⟩,
  /- 20 suppress_first_dimension_extension_line -/ ⟨.bool, (false : Bool)⟩,
  /- 21 suppress_second_dimension_extension_line -/ ⟨.bool, (false : Bool)⟩,
  /- 22 text_above_dimension_line -/ ⟨.bool, (false : Bool)⟩,
  /- 23 dimension_unit_zero_suppression -/ ⟨.enum E.unitZeroSuppression, (⟨0, by decide⟩ : Fin (List.length E.unitZeroSuppression))⟩,
  /- 24 dimension_angle_zero_suppression -/ ⟨.enum E.unitZeroSuppression, (⟨0, by decide⟩ : Fin (List.length E.unitZeroSuppression))⟩,
  /- 25 dimensioning_text_height -/ ⟨.f64, (⟨0x3fc70a3d70a3d70a#64⟩ : F64)⟩,
  /- 26 center_mark_size -/ ⟨.f64, (⟨0x3fb70a3d70a3d70a#64⟩ : F64)⟩,
  /- 27 dimensioning_tick_size -/ ⟨.f64, (⟨0x0000000000000000#64⟩ : F64)⟩,
  /- 28 alternate_dimensioning_scale_factor -/ ⟨.f64, (⟨0x4039666666666666#64⟩ : F64)⟩,
  /- 29 dimension_linear_measurement_scale_factor -/ ⟨.f64, (⟨0x3ff0000000000000#64⟩ : F64)⟩,
  /- 30 dimension_vertical_text_position -/ ⟨.f64, (⟨0x0000000000000000#64⟩ : F64)⟩,
  /- 31 dimension_tolerance_displace_scale_factor -/ ⟨.f64, (⟨0x3ff0000000000000#64⟩ : F64)⟩,
  /- 32 dimension_line_gap -/ ⟨.f64, (⟨0x3fb70a3d70a3d70a#64⟩ : F64)⟩,
  /- 33 alternate_dimensioning_unit_rounding -/ ⟨.f64, (⟨0x0000000000000000#64⟩ : F64)⟩,
  /- 34 use_alternate_dimensioning -/ ⟨.bool, (false : Bool)⟩,
  /- 35 alternate_dimensioning_decimal_places -/ ⟨.i16, (2#16 : BitVec 16)⟩,
  /- 36 force_dimension_line_extensions_outside_if_text_exists -/ ⟨.bool, (false : Bool)⟩,
  /- 37 use_separate_arrow_blocks_for_dimensions -/ ⟨.bool, (false : Bool)⟩,
  /- 38 force_dimension_text_inside_extensions -/ ⟨.bool, (false : Bool)⟩,
  /- 39 suppress_outside_extension_dimension_lines -/ ⟨.bool, (false : Bool)⟩,
  /- 40 dimension_line_color -/ ⟨.i16, (0#16 : I16)⟩,
  /- 41 dimension_extension_line_color -/ ⟨.i16, (0#16 : I16)⟩,
  /- 42 dimension_text_color -/ ⟨.i16, (0#16 : I16)⟩,
  /- 43 angular_dimension_precision -/ ⟨.i16, (12#16 : BitVec 16)⟩,
  /- 44 dimension_unit_format -/ ⟨.enum E.unitFormat, (⟨0, by decide⟩ : Fin (List.length E.unitFormat))⟩,
  /- 45 dimension_unit_tolerance_decimal_places -/ ⟨.i16, (0#16 : BitVec 16)⟩,
  /- 46 dimension_tolerace_decimal_places -/ ⟨.i16, (0#16 : BitVec 16)⟩,
  /- 47 alternate_dimensioning_units -/ ⟨.enum E.unitFormat, (⟨0, by decide⟩ : Fin (List.length E.unitFormat))⟩,
  /- 48 alternate_dimensioning_tolerance_decimal_places -/ ⟨.i16, (0#16 : BitVec 16)⟩,
  /- 49 dimensioning_angle_format -/ ⟨.enum E.angleFormat, (⟨0, by decide⟩ : Fin (List.length E.angleFormat))⟩,
  /- 50 dimension_precision -/ ⟨.i16, (12#16 : BitVec 16)⟩,
  /- 51 dimension_non_angular_units -/ ⟨.enum E.nonAngularUnits, (⟨0, by decide⟩ : Fin (List.length E.nonAngularUnits))⟩,
  /- 52 dimension_decilam_separator_char -/ ⟨.chr, ('.' : Char)⟩,
  /- 53 dimension_text_movement_rule -/ ⟨.enum E.dimensionTextMovementRule, (⟨0, by decide⟩ : Fin (List.length E.dimensionTextMovementRule))⟩,
  /- 54 dimension_text_justification -/ ⟨.enum E.dimensionTextJustification, (⟨0, by decide⟩ : Fin (List.length E.dimensionTextJustification))⟩,
  /- 55 dimension_tolerance_vertical_justification -/ ⟨.enum E.justification, (⟨0, by decide⟩ : Fin (List.length E.justification))⟩,
  /- 56 dimension_tolerance_zero_suppression -/ ⟨.enum E.unitZeroSuppression, (⟨0, by decide⟩ : Fin (List.length E.unitZeroSuppression))⟩,
  /- 57 alternate_dimensioning_zero_suppression -/ ⟨.enum E.unitZeroSuppression, (⟨0, by decide⟩ : Fin (List.length E.unitZeroSuppression))⟩,
  /- 58 alternate_dimensioning_tolerance_zero_suppression -/ ⟨.enum E.unitZeroSuppression, (⟨0, by decide⟩ : Fin (List.length E.unitZeroSuppression))⟩,
  /- 59 dimension_text_and_arrow_placement -/ ⟨.enum E.dimensionFit, (⟨0, by decide⟩ : Fin (List.length E.dimensionFit))⟩,
  /- 60 dimension_cursor_controls_text_position -/ ⟨.bool, (true : Bool)⟩,
  /- 61 dimension_text_style -/ ⟨.str, ([] : Str)⟩,
  /- 62 dimension_leader_block_name -/ ⟨.str, ([] : Str)⟩,
  /- 63 arrow_block_name -/ ⟨.str, ([] : Str)⟩,
  /- 64 dimension_line_weight -/ ⟨.i16, (0#16 : I16)⟩,
  /- 65 dimension_extension_line_weight -/ ⟨.i16, (0#16 : I16)⟩]

/-- Match arms of the reader of `DimStyle`. -/
def Tables.dimStyleArms : List (Arm Tables.dimStyleDecls) := [
  ⟨2, .on 0 (.set .str)⟩,
  ⟨5, .on 1 (.set .handle)⟩,
  ⟨330, .on 2 (.set .handle)⟩,
  ⟨3, .on 3 (.set .str)⟩,
  ⟨4, .on 4 (.set .str)⟩,
  ⟨6, .on 5 (.set .str)⟩,
  ⟨7, .on 6 (.set .str)⟩,
  ⟨40, .on 7 (.set .f64)⟩,
  ⟨41, .on 8 (.set .f64)⟩,
  ⟨42, .on 9 (.set .f64)⟩,
  ⟨43, .on 10 (.set .f64)⟩,
  ⟨44, .on 11 (.set .f64)⟩,
  ⟨45, .on 12 (.set .f64)⟩,
  ⟨46, .on 13 (.set .f64)⟩,
  ⟨47, .on 14 (.set .f64)⟩,
  ⟨48, .on 15 (.set .f64)⟩,
  ⟨71, .on 16 (.set .asBool)⟩,
  ⟨72, .on 17 (.set .asBool)⟩,
  ⟨73, .on 18 (.set .asBool)⟩,
  ⟨74, .on 19 (.set .asBool)⟩,
  ⟨75, .on 20 (.set .asBool)⟩,
  ⟨76, .on 21 (.set .asBool)⟩,
  ⟨77, .on 22 (.set .asBool)⟩,
  ⟨78, .on 23 (.set (.enumI16 E.unitZeroSuppression ⟨0, by decide⟩))⟩,
  ⟨79, .on 24 (.set (.enumI16 E.unitZeroSuppression ⟨0, by decide⟩))⟩,
  ⟨140, .on 25 (.set .f64)⟩,
  ⟨141, .on 26 (.set .f64)⟩,
  ⟨142, .on 27 (.set .f64)⟩,
  ⟨143, .on 28 (.set .f64)⟩,
  ⟨144, .on 29 (.set .f64)⟩,
  ⟨145, .on 30 (.set .f64)⟩,
  ⟨146, .on 31 (.set .f64)⟩,
  ⟨147, .on 32 (.set .f64)⟩,
  ⟨148, .on 33 (.set .f64)⟩,
  ⟨170, .on 34 (.set .asBool)⟩,
  ⟨171, .on 35 (.set .i16)⟩,
  ⟨172, .on 36 (.set .asBool)⟩,
  ⟨173, .on 37 (.set .asBool)⟩,
  ⟨174, .on 38 (.set .asBool)⟩,
  ⟨175, .on 39 (.set .asBool)⟩,
  ⟨176, .on 40 (.set .i16)⟩,
  ⟨177, .on 41 (.set .i16)⟩,
  ⟨178, .on 42 (.set .i16)⟩,
  ⟨179, .on 43 (.set .i16)⟩,
  ⟨270, .on 44 (.set (.enumI16 E.unitFormat ⟨0, by decide⟩))⟩,
  ⟨271, .on 45 (.set .i16)⟩,
  ⟨272, .on 46 (.set .i16)⟩,
  ⟨273, .on 47 (.set (.enumI16 E.unitFormat ⟨0, by decide⟩))⟩,
  ⟨274, .on 48 (.set .i16)⟩,
  ⟨275, .on 49 (.set (.enumI16 E.angleFormat ⟨0, by decide⟩))⟩,
  ⟨276, .on 50 (.set .i16)⟩,
  ⟨277, .on 51 (.set (.enumI16 E.nonAngularUnits ⟨0, by decide⟩))⟩,
  ⟨278, .on 52 (.set .chr)⟩,
  ⟨279, .on 53 (.set (.enumI16 E.dimensionTextMovementRule ⟨0, by decide⟩))⟩,
  ⟨280, .on 54 (.set (.enumI16 E.dimensionTextJustification ⟨0, by decide⟩))⟩,
  ⟨281, .on 20 (.set .asBool)⟩,
  ⟨282, .on 21 (.set .asBool)⟩,
  ⟨283, .on 55 (.set (.enumI16 E.justification ⟨0, by decide⟩))⟩,
  ⟨284, .on 56 (.set (.enumI16 E.unitZeroSuppression ⟨0, by decide⟩))⟩,
  ⟨285, .on 57 (.set (.enumI16 E.unitZeroSuppression ⟨0, by decide⟩))⟩,
  ⟨286, .on 58 (.set (.enumI16 E.unitZeroSuppression ⟨0, by decide⟩))⟩,
  ⟨287, .on 59 (.set (.enumI16 E.dimensionFit ⟨0, by decide⟩))⟩,
  ⟨288, .on 60 (.set .asBool)⟩,
  ⟨289, .on 59 (.set (.enumI16 E.dimensionFit ⟨0, by decide⟩))⟩,
  ⟨340, .on 61 (.set .str)⟩,
  ⟨341, .on 62 (.set .str)⟩,
  ⟨342, .on 63 (.set .str)⟩,
  ⟨343, .on 5 (.set .str)⟩,
  ⟨344, .on 6 (.set .str)⟩,
  ⟨371, .on 64 (.set .i16)⟩,
  ⟨372, .on 65 (.set .i16)⟩]

/-- The statement for the handle of `DimStyle` (build/table_generator.rs:386-389). -/
def Tables.dimStyleHead (writeHandles : Bool) : List (GCmd Tables.dimStyleDecls) :=
  [{ cmd := .field 1 (.one 5 .handle), cond := fun _ => writeHandles }]

/-- Write statements of `DimStyle` (build/table_generator.rs:397-). -/
def Tables.dimStyleCmds : List (GCmd Tables.dimStyleDecls) := [
  { cmd := .const (.newStr 100 str!"AcDbSymbolTableRecord") },
  { cmd := .const (.newStr 100 str!"AcDbDimStyleTableRecord") },
  { cmd := .field 0 (.one 2 .str) },
  { cmd := .const (.newI16 70 0#16) },
  { cmd := .field 3 (.one 3 .str) },
  { cmd := .field 4 (.one 4 .str) },
  { cmd := .field 5 (.one 6 .str), max := (some .r14) },
  { cmd := .field 6 (.one 7 .str), max := (some .r14) },
  { cmd := .field 7 (.one 40 .f64) },
  { cmd := .field 8 (.one 41 .f64) },
  { cmd := .field 9 (.one 42 .f64) },
  { cmd := .field 10 (.one 43 .f64) },
  { cmd := .field 11 (.one 44 .f64) },
  { cmd := .field 12 (.one 45 .f64) },
  { cmd := .field 13 (.one 46 .f64) },
  { cmd := .field 14 (.one 47 .f64) },
  { cmd := .field 15 (.one 48 .f64) },
  { cmd := .field 16 (.one 71 .asI16) },
  { cmd := .field 17 (.one 72 .asI16) },
  { cmd := .field 18 (.one 73 .asI16) },
  { cmd := .field 19 (.one 74 .asI16) },
  { cmd := .field 20 (.one 75 .asI16) },
  { cmd := .field 21 (.one 76 .asI16) },
  { cmd := .field 22 (.one 77 .asI16) },
  { cmd := .field 23 (.one 78 (.enumI16 E.unitZeroSuppression)) },
  { cmd := .field 24 (.one 79 (.enumI16 E.unitZeroSuppression)), min := (some .r2000) },
  { cmd := .field 25 (.one 140 .f64) },
  { cmd := .field 26 (.one 141 .f64) },
  { cmd := .field 27 (.one 142 .f64) },
  { cmd := .field 28 (.one 143 .f64) },
  { cmd := .field 29 (.one 144 .f64) },
  { cmd := .field 30 (.one 145 .f64) },
  { cmd := .field 31 (.one 146 .f64) },
  { cmd := .field 32 (.one 147 .f64) },
  { cmd := .field 33 (.one 148 .f64), min := (some .r2000) },
  { cmd := .field 34 (.one 170 .asI16) },
  { cmd := .field 35 (.one 171 .i16) },
  { cmd := .field 36 (.one 172 .asI16) },
  { cmd := .field 37 (.one 173 .asI16) },
  { cmd := .field 38 (.one 174 .asI16) },
  { cmd := .field 39 (.one 175 .asI16) },
  { cmd := .field 40 (.one 176 .i16) },
  { cmd := .field 41 (.one 177 .i16) },
  { cmd := .field 42 (.one 178 .i16) },
  { cmd := .field 43 (.one 179 .i16), min := (some .r2000) },
  { cmd := .field 44 (.one 270 (.enumI16 E.unitFormat)), min := (some .r13) },
  { cmd := .field 45 (.one 271 .i16), min := (some .r13) },
  { cmd := .field 46 (.one 272 .i16), min := (some .r13) },
  { cmd := .field 47 (.one 273 (.enumI16 E.unitFormat)), min := (some .r13) },
  { cmd := .field 48 (.one 274 .i16), min := (some .r13) },
  { cmd := .field 49 (.one 275 (.enumI16 E.angleFormat)), min := (some .r13) },
  { cmd := .field 50 (.one 276 .i16), min := (some .r2000) },
  { cmd := .field 51 (.one 277 (.enumI16 E.nonAngularUnits)), min := (some .r2000) },
  { cmd := .field 52 (.one 278 .chr), min := (some .r2000) },
  { cmd := .field 53 (.one 279 (.enumI16 E.dimensionTextMovementRule)), min := (some .r2000) },
  { cmd := .field 54 (.one 280 (.enumI16 E.dimensionTextJustification)), min := (some .r13) },
  { cmd := .field 20 (.one 281 .asI16), min := (some .r13) },
  { cmd := .field 21 (.one 282 .asI16), min := (some .r13) },
  { cmd := .field 55 (.one 283 (.enumI16 E.justification)), min := (some .r13) },
  { cmd := .field 56 (.one 284 (.enumI16 E.unitZeroSuppression)), min := (some .r13) },
  { cmd := .field 57 (.one 285 (.enumI16 E.unitZeroSuppression)), min := (some .r13) },
  { cmd := .field 58 (.one 286 (.enumI16 E.unitZeroSuppression)), min := (some .r13) },
  { cmd := .field 59 (.one 287 (.enumI16 E.dimensionFit)), min := (some .r13) },
  { cmd := .field 60 (.one 288 .asI16), min := (some .r13) },
  { cmd := .field 59 (.one 289 (.enumI16 E.dimensionFit)), min := (some .r2000) },
  { cmd := .field 61 (.one 340 .str), min := (some .r13) },
  { cmd := .field 62 (.one 341 .str), min := (some .r2000) },
  { cmd := .field 63 (.one 342 .str), min := (some .r2000) },
  { cmd := .field 5 (.one 343 .str), min := (some .r2000) },
  { cmd := .field 6 (.one 344 .str), min := (some .r2000) },
  { cmd := .field 64 (.one 371 .i16), min := (some .r2000) },
  { cmd := .field 65 (.one 372 .i16), min := (some .r2000) }]

/-- Fields of `LineType`. -/
def Tables.lineTypeDecls : List Decl := [
  /- 0 name -/ ⟨.str, ([] : Str)⟩,
  /- 1 handle -/ ⟨.handle, (0#64 : Handle)⟩,
  /- 2 __owner_handle -/ ⟨.handle, (0#64 : Handle)⟩,
  /- 3 description -/ ⟨.str, ([] : Str)⟩,
  /- 4 alignment_code -/ ⟨.i32, (65#32 : BitVec 32)⟩,
  /- 5 element_count -/ ⟨.i32, (0#32 : BitVec 32)⟩,
  /- 6 total_pattern_length -/ ⟨.f64, (⟨0x0000000000000000#64⟩ : F64)⟩,
  /- 7 dash_dot_space_lengths -/ ⟨.list .f64, ([] : List (F64))⟩,
  /- 8 complex_line_type_element_types -/ ⟨.list .i16, ([] : List (I16))⟩,
  /- 9 shape_numbers -/ ⟨.list .i16, ([] : List (I16))⟩,
  /- 10 __styles_handle -/ ⟨.list .handle, ([] : List (Handle))⟩,
  /- 11 scale_values -/ ⟨.list .f64, ([] : List (F64))⟩,
  /- 12 rotation_angles -/ ⟨.list .f64, ([] : List (F64))⟩,
  /- 13 x_offsets -/ ⟨.list .f64, ([] : List (F64))⟩,
  /- 14 y_offsets -/ ⟨.list .f64, ([] : List (F64))⟩,
  /- 15 text_strings -/ ⟨.list .str, ([] : List (Str))⟩]

/-- Match arms of the reader of `LineType`. -/
def Tables.lineTypeArms : List (Arm Tables.lineTypeDecls) := [
  ⟨2, .on 0 (.set .str)⟩,
  ⟨5, .on 1 (.set .handle)⟩,
  ⟨330, .on 2 (.set .handle)⟩,
  ⟨3, .on 3 (.set .str)⟩,
  ⟨72, .on 4 (.set .i32OfI16)⟩,
  ⟨73, .on 5 (.set .i32OfI16)⟩,
  ⟨40, .on 6 (.set .f64)⟩,
  ⟨49, .on 7 (.push .f64)⟩,
  ⟨74, .on 8 (.push .i16)⟩,
  ⟨75, .on 9 (.push .i16)⟩,
  ⟨340, .on 10 (.push .handle)⟩,
  ⟨46, .on 11 (.push .f64)⟩,
  ⟨50, .on 12 (.push .f64)⟩,
  ⟨44, .on 13 (.push .f64)⟩,
  ⟨45, .on 14 (.push .f64)⟩,
  ⟨9, .on 15 (.push .str)⟩]

/-- The statement for the handle of `LineType` (build/table_generator.rs:386-389). -/
def Tables.lineTypeHead (writeHandles : Bool) : List (GCmd Tables.lineTypeDecls) :=
  [{ cmd := .field 1 (.one 5 .handle), cond := fun _ => writeHandles }]

/-- Write statements of `LineType` (build/table_generator.rs:397-). -/
def Tables.lineTypeCmds : List (GCmd Tables.lineTypeDecls) := [
  { cmd := .const (.newStr 100 str!"AcDbSymbolTableRecord") },
  { cmd := .const (.newStr 100 str!"AcDbLinetypeTableRecord") },
  { cmd := .field 0 (.one 2 .str) },
  { cmd := .const (.newI16 70 0#16) },
  { cmd := .field 3 (.one 3 .str) },
  { cmd := .field 4 (.one 72 .i32AsI16) },
  { cmd := .field 5 (.one 73 .i32AsI16) },
  { cmd := .field 6 (.one 40 .f64) },
  { cmd := .field 7 (.many 49 .f64) },
  { cmd := .field 8 (.many 74 .i16), min := (some .r13) },
  { cmd := .field 9 (.many 75 .i16), min := (some .r13) },
  { cmd := .field 10 (.many 340 .handle), min := (some .r13) },
  { cmd := .field 11 (.many 46 .f64), min := (some .r13) },
  { cmd := .field 12 (.many 50 .f64), min := (some .r13) },
  { cmd := .field 13 (.many 44 .f64), min := (some .r13) },
  { cmd := .field 14 (.many 45 .f64), min := (some .r13) },
  { cmd := .field 15 (.many 9 .str), min := (some .r13) }]

/-- Fields of `Layer`. -/
def Tables.layerDecls : List Decl := [
  /- 0 name -/ ⟨.str, ([] : Str)⟩,
  /- 1 handle -/ ⟨.handle, (0#64 : Handle)⟩,
  /- 2 __owner_handle -/ ⟨.handle, (0#64 : Handle)⟩,
  /- 3 color -/ ⟨.i16, (7#16 : I16)⟩,
  /- 4 line_type_name -/ ⟨.str, (str!"CONTINUOUS" : Str)⟩,
  /- 5 is_layer_plotted -/ ⟨.bool, (true : Bool)⟩,
  /- 6 line_weight -/ ⟨.i16, (0#16 : I16)⟩,
  /- 7 __plot_style_handle -/ ⟨.handle, (0#64 : Handle)⟩,
  /- 8 __material_handle -/ ⟨.handle, (0#64 : Handle)⟩,
  /- 9 is_layer_on -/ ⟨.bool, (true : Bool)⟩]

/-- Models the arm `62 => item.color = read_color_value(&mut item, pair.assert_i16()?)`,
src/helper_functions.rs:289-292; `color.abs()` panics in debug builds for -32768. -/
def Tables.readLayerColor : Act Tables.layerDecls := .custom [3, 9] fun r p =>
  match p.assertI16 with
  | .error e => .error e
  | .ok v =>
    match readColor v with
    | none => .error .panic
    | some (on, c) => .ok ((r.set 9 (on : Bool)).set 3 (c.raw : I16))

/-- Models `item.color.writable_color_value(item)`, src/color.rs:79-86.  For the raw value
-32768 debug builds panic and release builds wrap (C31); the model wraps. -/
def Tables.layerColorValue (r : Rec Tables.layerDecls) : I16 :=
  let raw : I16 := r 3
  let v := if raw.toInt < 0 then -raw else raw
  bif r 9 then v else -v

/-- Match arms of the reader of `Layer`. -/
def Tables.layerArms : List (Arm Tables.layerDecls) := [
  ⟨2, .on 0 (.set .str)⟩,
  ⟨5, .on 1 (.set .handle)⟩,
  ⟨330, .on 2 (.set .handle)⟩,
  ⟨62, Tables.readLayerColor⟩,
  ⟨6, .on 4 (.set .str)⟩,
  ⟨290, .on 5 (.set .bool)⟩,
  ⟨370, .on 6 (.set .i16)⟩,
  ⟨390, .on 7 (.set .handle)⟩,
  ⟨347, .on 8 (.set .handle)⟩]

/-- The statement for the handle of `Layer` (build/table_generator.rs:386-389). -/
def Tables.layerHead (writeHandles : Bool) : List (GCmd Tables.layerDecls) :=
  [{ cmd := .field 1 (.one 5 .handle), cond := fun _ => writeHandles }]

/-- Write statements of `Layer` (build/table_generator.rs:397-). -/
def Tables.layerCmds : List (GCmd Tables.layerDecls) := [
  { cmd := .const (.newStr 100 str!"AcDbSymbolTableRecord") },
  { cmd := .const (.newStr 100 str!"AcDbLayerTableRecord") },
  { cmd := .field 0 (.one 2 .str) },
  { cmd := .const (.newI16 70 0#16) },
  { cmd := .computed (t := .i16) 62 .i16 Tables.layerColorValue },
  { cmd := .field 4 (.one 6 .str) },
  { cmd := .field 5 (.one 290 .bool), min := (some .r2000) },
  { cmd := .field 6 (.one 370 .i16), min := (some .r2000) },
  { cmd := .field 7 (.one 390 .handle), min := (some .r2000) },
  { cmd := .field 8 (.one 347 .handle), min := (some .r2007) }]

/-- Fields of `Style`. -/
def Tables.styleDecls : List Decl := [
  /- 0 name -/ ⟨.str, ([] : Str)⟩,
  /- 1 handle -/ ⟨.handle, (0#64 : Handle)⟩,
  /- 2 __owner_handle -/ ⟨.handle, (0#64 : Handle)⟩,
  /- 3 text_height -/ ⟨.f64, (⟨0x0000000000000000#64⟩ : F64)⟩,
  /- 4 width_factor -/ ⟨.f64, (⟨0x3ff0000000000000#64⟩ : F64)⟩,
  /- 5 oblique_angle -/ ⟨.f64, (⟨0x0000000000000000#64⟩ : F64)⟩,
  /- 6 text_generation_flags -/ ⟨.i32, (0#32 : BitVec 32)⟩,
  /- 7 last_height_used -/ ⟨.f64, (⟨0x3fc999999999999a#64⟩ : F64)⟩,
  /- 8 primary_font_file_name -/ ⟨.str, (str!"txt" : Str)⟩,
  /- 9 big_font_file_name -/ ⟨.str, ([] : Str)⟩]

/-- Match arms of the reader of `Style`. -/
def Tables.styleArms : List (Arm Tables.styleDecls) := [
  ⟨2, .on 0 (.set .str)⟩,
  ⟨5, .on 1 (.set .handle)⟩,
  ⟨330, .on 2 (.set .handle)⟩,
  ⟨40, .on 3 (.set .f64)⟩,
  ⟨41, .on 4 (.set .f64)⟩,
  ⟨50, .on 5 (.set .f64)⟩,
  ⟨71, .on 6 (.set .i32OfI16)⟩,
  ⟨42, .on 7 (.set .f64)⟩,
  ⟨3, .on 8 (.set .str)⟩,
  ⟨4, .on 9 (.set .str)⟩]

/-- The statement for the handle of `Style` (build/table_generator.rs:386-389). -/
def Tables.styleHead (writeHandles : Bool) : List (GCmd Tables.styleDecls) :=
  [{ cmd := .field 1 (.one 5 .handle), cond := fun _ => writeHandles }]

/-- Write statements of `Style` (build/table_generator.rs:397-). -/
def Tables.styleCmds : List (GCmd Tables.styleDecls) := [
  { cmd := .const (.newStr 100 str!"AcDbSymbolTableRecord") },
  { cmd := .const (.newStr 100 str!"AcDbTextStyleTableRecord") },
  { cmd := .field 0 (.one 2 .str) },
  { cmd := .const (.newI16 70 0#16) },
  { cmd := .field 3 (.one 40 .f64) },
  { cmd := .field 4 (.one 41 .f64) },
  { cmd := .field 5 (.one 50 .f64) },
  { cmd := .field 6 (.one 71 .i32AsI16) },
  { cmd := .field 7 (.one 42 .f64) },
  { cmd := .field 8 (.one 3 .str) },
  { cmd := .field 9 (.one 4 .str) }]

/-- Fields of `Ucs`. -/
def Tables.ucsDecls : List Decl := [
  /- 0 name -/ ⟨.str, ([] : Str)⟩,
  /- 1 handle -/ ⟨.handle, (0#64 : Handle)⟩,
  /- 2 __owner_handle -/ ⟨.handle, (0#64 : Handle)⟩,
  /- 3 origin -/ ⟨.point, (⟨(⟨0x0000000000000000#64⟩ : F64), (⟨0x0000000000000000#64⟩ : F64), (⟨0x0000000000000000#64⟩ : F64)⟩ : Point)⟩,
  /- 4 x_axis -/ ⟨.point, (⟨(⟨0x3ff0000000000000#64⟩ : F64), (⟨0x0000000000000000#64⟩ : F64), (⟨0x0000000000000000#64⟩ : F64)⟩ : Point)⟩,
  /- 5 y_axis -/ ⟨.point, (⟨(⟨0x0000000000000000#64⟩ : F64), (⟨0x3ff0000000000000#64⟩ : F64), (⟨0x0000000000000000#64⟩ : F64)⟩ : Point)⟩,
  /- 6 orthographic_view_type -/ ⟨.enum E.orthographicViewType, (⟨0, by decide⟩ : Fin (List.length E.orthographicViewType))⟩,
  /- 7 elevation -/ ⟨.f64, (⟨0x0000000000000000#64⟩ : F64)⟩,
  /- 8 __base_ucs_handle -/ ⟨.handle, (0#64 : Handle)⟩,
  /- 9 orthographic_type -/ ⟨.enum E.orthographicViewType, (⟨1, by decide⟩ : Fin (List.length E.orthographicViewType))⟩,
  /- 10 orthographic_origin -/ ⟨.point, (⟨(⟨0x0000000000000000#64⟩ : F64), (⟨0x0000000000000000#64⟩ : F64), (⟨0x0000000000000000#64⟩ : F64)⟩ : Point)⟩]

/-- Match arms of the reader of `Ucs`. -/
def Tables.ucsArms : List (Arm Tables.ucsDecls) := [
  ⟨2, .on 0 (.set .str)⟩,
  ⟨5, .on 1 (.set .handle)⟩,
  ⟨330, .on 2 (.set .handle)⟩,
  ⟨10, .on 3 (.axis .x)⟩,
  ⟨20, .on 3 (.axis .y)⟩,
  ⟨30, .on 3 (.axis .z)⟩,
  ⟨11, .on 4 (.axis .x)⟩,
  ⟨21, .on 4 (.axis .y)⟩,
  ⟨31, .on 4 (.axis .z)⟩,
  ⟨12, .on 5 (.axis .x)⟩,
  ⟨22, .on 5 (.axis .y)⟩,
  ⟨32, .on 5 (.axis .z)⟩,
  ⟨79, .on 6 (.set (.enumI16 E.orthographicViewType ⟨0, by decide⟩))⟩,
  ⟨146, .on 7 (.set .f64)⟩,
  ⟨346, .on 8 (.set .handle)⟩,
  ⟨71, .on 9 (.set (.enumI16 E.orthographicViewType ⟨1, by decide⟩))⟩,
  ⟨13, .on 10 (.axis .x)⟩,
  ⟨23, .on 10 (.axis .y)⟩,
  ⟨33, .on 10 (.axis .z)⟩]

/-- The statement for the handle of `Ucs` (build/table_generator.rs:386-389). -/
def Tables.ucsHead (writeHandles : Bool) : List (GCmd Tables.ucsDecls) :=
  [{ cmd := .field 1 (.one 5 .handle), cond := fun _ => writeHandles }]

/-- Write statements of `Ucs` (build/table_generator.rs:397-). -/
def Tables.ucsCmds : List (GCmd Tables.ucsDecls) := [
  { cmd := .const (.newStr 100 str!"AcDbSymbolTableRecord") },
  { cmd := .const (.newStr 100 str!"AcDbUCSTableRecord") },
  { cmd := .field 0 (.one 2 .str) },
  { cmd := .const (.newI16 70 0#16) },
  { cmd := .field 3 (.axes [(.x, 10), (.y, 20), (.z, 30)]) },
  { cmd := .field 4 (.axes [(.x, 11), (.y, 21), (.z, 31)]) },
  { cmd := .field 5 (.axes [(.x, 12), (.y, 22), (.z, 32)]) },
  { cmd := .field 6 (.one 79 (.enumI16 E.orthographicViewType)), min := (some .r2000) },
  { cmd := .field 7 (.one 146 .f64), min := (some .r2000) },
  { cmd := .field 8 (.one 346 .handle), min := (some .r2000) },
  { cmd := .field 9 (.one 71 (.enumI16 E.orthographicViewType)), min := (some .r2000) },
  { cmd := .field 10 (.axes [(.x, 13), (.y, 23), (.z, 33)]), min := (some .r2000) }]

/-- Fields of `View`. -/
def Tables.viewDecls : List Decl := [
  /- 0 name -/ ⟨.str, ([] : Str)⟩,
  /- 1 handle -/ ⟨.handle, (0#64 : Handle)⟩,
  /- 2 __owner_handle -/ ⟨.handle, (0#64 : Handle)⟩,
  /- 3 view_height -/ ⟨.f64, (⟨0x3ff0000000000000#64⟩ : F64)⟩,
  /- 4 view_center_point -/ ⟨.point, (⟨(⟨0x0000000000000000#64⟩ : F64), (⟨0x0000000000000000#64⟩ : F64), (⟨0x0000000000000000#64⟩ : F64)⟩ : Point)⟩,
  /- 5 view_width -/ ⟨.f64, (⟨0x3ff0000000000000#64⟩ : F64)⟩,
  /- 6 view_direction -/ ⟨.point, (⟨(⟨0x0000000000000000#64⟩ : F64), (⟨0x0000000000000000#64⟩ : F64), (⟨0x3ff0000000000000#64⟩ : F64)⟩ : Point)⟩,
  /- 7 target_point -/ ⟨.point, (⟨(⟨0x0000000000000000#64⟩ : F64), (⟨0x0000000000000000#64⟩ : F64), (⟨0x0000000000000000#64⟩ : F64)⟩ : Point)⟩,
  /- 8 lens_length -/ ⟨.f64, (⟨0x3ff0000000000000#64⟩ : F64)⟩,
  /- 9 front_clipping_plane -/ ⟨.f64, (⟨0x0000000000000000#64⟩ : F64)⟩,
  /- 10 back_clipping_plane -/ ⟨.f64, (⟨0x3ff0000000000000#64⟩ : F64)⟩,
  /- 11 twist_angle -/ ⟨.f64, (⟨0x0000000000000000#64⟩ : F64)⟩,
  /- 12 view_mode -/ ⟨.i16, (0#16 : BitVec 16)⟩,
  /- 13 render_mode -/ ⟨.enum E.viewRenderMode, (⟨0, by decide⟩ : Fin (List.length E.viewRenderMode))⟩,
  /- 14 is_associated_ucs_present -/ ⟨.bool, (false : Bool)⟩,
  /- 15 is_camera_plottable -/ ⟨.bool, (false : Bool)⟩,
  /- 16 __background_object_handle -/ ⟨.handle, (0#64 : Handle)⟩,
  /- 17 __selection_object_handle -/ ⟨.handle, (0#64 : Handle)⟩,
  /- 18 __visual_style_object_handle -/ ⟨.handle, (0#64 : Handle)⟩,
  /- 19 __sun_ownership_handle -/ ⟨.handle, (0#64 : Handle)⟩,
  /- 20 ucs_origin -/ ⟨.point, (⟨(⟨0x0000000000000000#64⟩ : F64), (⟨0x0000000000000000#64⟩ : F64), (⟨0x0000000000000000#64⟩ : F64)⟩ : Point)⟩,
  /- 21 ucs_x_axis -/ ⟨.point, (⟨(⟨0x3ff0000000000000#64⟩ : F64), (⟨0x0000000000000000#64⟩ : F64), (⟨0x0000000000000000#64⟩ : F64)⟩ : Point)⟩,
  /- 22 ucs_y_axis -/ ⟨.point, (⟨(⟨0x0000000000000000#64⟩ : F64), (⟨0x3ff0000000000000#64⟩ : F64), (⟨0x0000000000000000#64⟩ : F64)⟩ : Point)⟩,
  /- 23 orthographic_view_type -/ ⟨.enum E.orthographicViewType, (⟨0, by decide⟩ : Fin (List.length E.orthographicViewType))⟩,
  /- 24 ucs_elevation -/ ⟨.f64, (⟨0x0000000000000000#64⟩ : F64)⟩,
  /- 25 __ucs_handle -/ ⟨.handle, (0#64 : Handle)⟩,
  /- 26 __base_ucs_handle -/ ⟨.handle, (0#64 : Handle)⟩]

/-- Match arms of the reader of `View`. -/
def Tables.viewArms : List (Arm Tables.viewDecls) := [
  ⟨2, .on 0 (.set .str)⟩,
  ⟨5, .on 1 (.set .handle)⟩,
  ⟨330, .on 2 (.set .handle)⟩,
  ⟨40, .on 3 (.set .f64)⟩,
  ⟨10, .on 4 (.axis .x)⟩,
  ⟨20, .on 4 (.axis .y)⟩,
  ⟨41, .on 5 (.set .f64)⟩,
  ⟨11, .on 6 (.axis .x)⟩,
  ⟨21, .on 6 (.axis .y)⟩,
  ⟨31, .on 6 (.axis .z)⟩,
  ⟨12, .on 7 (.axis .x)⟩,
  ⟨22, .on 7 (.axis .y)⟩,
  ⟨32, .on 7 (.axis .z)⟩,
  ⟨42, .on 8 (.set .f64)⟩,
  ⟨43, .on 9 (.set .f64)⟩,
  ⟨44, .on 10 (.set .f64)⟩,
  ⟨50, .on 11 (.set .f64)⟩,
  ⟨71, .on 12 (.set .i16)⟩,
  ⟨281, .on 13 (.set (.enumI16 E.viewRenderMode ⟨0, by decide⟩))⟩,
  ⟨72, .on 14 (.set .asBool)⟩,
  ⟨73, .on 15 (.set .asBool)⟩,
  ⟨332, .on 16 (.set .handle)⟩,
  ⟨334, .on 17 (.set .handle)⟩,
  ⟨338, .on 18 (.set .handle)⟩,
  ⟨361, .on 19 (.set .handle)⟩,
  ⟨110, .on 20 (.axis .x)⟩,
  ⟨120, .on 20 (.axis .y)⟩,
  ⟨130, .on 20 (.axis .z)⟩,
  ⟨111, .on 21 (.axis .x)⟩,
  ⟨121, .on 21 (.axis .y)⟩,
  ⟨131, .on 21 (.axis .z)⟩,
  ⟨112, .on 22 (.axis .x)⟩,
  ⟨122, .on 22 (.axis .y)⟩,
  ⟨132, .on 22 (.axis .z)⟩,
  ⟨79, .on 23 (.set (.enumI16 E.orthographicViewType ⟨0, by decide⟩))⟩,
  ⟨146, .on 24 (.set .f64)⟩,
  ⟨345, .on 25 (.set .handle)⟩,
  ⟨346, .on 26 (.set .handle)⟩]

/-- The statement for the handle of `View` (build/table_generator.rs:386-389). -/
def Tables.viewHead (writeHandles : Bool) : List (GCmd Tables.viewDecls) :=
  [{ cmd := .field 1 (.one 5 .handle), cond := fun _ => writeHandles }]

/-- Write statements of `View` (build/table_generator.rs:397-). -/
def Tables.viewCmds : List (GCmd Tables.viewDecls) := [
  { cmd := .const (.newStr 100 str!"AcDbSymbolTableRecord") },
  { cmd := .const (.newStr 100 str!"AcDbViewTableRecord") },
  { cmd := .field 0 (.one 2 .str) },
  { cmd := .const (.newI16 70 0#16) },
  { cmd := .field 3 (.one 40 .f64) },
  { cmd := .field 4 (.axes [(.x, 10), (.y, 20)]) },
  { cmd := .field 5 (.one 41 .f64) },
  { cmd := .field 6 (.axes [(.x, 11), (.y, 21), (.z, 31)]) },
  { cmd := .field 7 (.axes [(.x, 12), (.y, 22), (.z, 32)]) },
  { cmd := .field 8 (.one 42 .f64) },
  { cmd := .field 9 (.one 43 .f64) },
  { cmd := .field 10 (.one 44 .f64) },
  { cmd := .field 11 (.one 50 .f64) },
  { cmd := .field 12 (.one 71 .i16) },
  { cmd := .field 13 (.one 281 (.enumI16 E.viewRenderMode)), min := (some .r2000) },
  { cmd := .field 14 (.one 72 .asI16), min := (some .r2000) },
  { cmd := .field 15 (.one 73 .asI16), min := (some .r2007) },
  { cmd := .field 16 (.one 332 .handle), min := (some .r2007) },
  { cmd := .field 17 (.one 334 .handle), min := (some .r2007) },
  { cmd := .field 18 (.one 338 .handle), min := (some .r2007) },
  { cmd := .field 19 (.one 361 .handle), min := (some .r2007) },
  { cmd := .field 20 (.axes [(.x, 110), (.y, 120), (.z, 130)]), min := (some .r2000), cond := fun r => r 14 },
  { cmd := .field 21 (.axes [(.x, 111), (.y, 121), (.z, 131)]), min := (some .r2000), cond := fun r => r 14 },
  { cmd := .field 22 (.axes [(.x, 112), (.y, 122), (.z, 132)]), min := (some .r2000), cond := fun r => r 14 },
  { cmd := .field 23 (.one 79 (.enumI16 E.orthographicViewType)), min := (some .r2000), cond := fun r => r 14 },
  { cmd := .field 24 (.one 146 .f64), min := (some .r2000), cond := fun r => r 14 },
  { cmd := .field 25 (.one 345 .handle), min := (some .r2007), cond := fun r => r 14 },
  { cmd := .field 26 (.one 346 .handle), min := (some .r2007), cond := fun r => r 14 }]

/-- Fields of `ViewPort`. -/
def Tables.viewPortDecls : List Decl := [
  /- 0 name -/ ⟨.str, ([] : Str)⟩,
  /- 1 handle -/ ⟨.handle, (0#64 : Handle)⟩,
  /- 2 __owner_handle -/ ⟨.handle, (0#64 : Handle)⟩,
  /- 3 lower_left -/ ⟨.point, (⟨(⟨0x0000000000000000#64⟩ : F64), (⟨0x0000000000000000#64⟩ : F64), (⟨0x0000000000000000#64⟩ : F64)⟩ : Point)⟩,
  /- 4 upper_right -/ ⟨.point, (⟨(⟨0x3ff0000000000000#64⟩ : F64), (⟨0x3ff0000000000000#64⟩ : F64), (⟨0x0000000000000000#64⟩ : F64)⟩ : Point)⟩,
  /- 5 view_center -/ ⟨.point, (⟨(⟨0x0000000000000000#64⟩ : F64), (⟨0x0000000000000000#64⟩ : F64), (⟨0x0000000000000000#64⟩ : F64)⟩ : Point)⟩,
  /- 6 snap_base_point -/ ⟨.point, (⟨(⟨0x0000000000000000#64⟩ : F64), (⟨0x0000000000000000#64⟩ : F64), (⟨0x0000000000000000#64⟩ : F64)⟩ : Point)⟩,
  /- 7 snap_spacing -/ ⟨.point, (⟨(⟨0x3ff0000000000000#64⟩ : F64), (⟨0x3ff0000000000000#64⟩ : F64), (⟨0x0000000000000000#64⟩ : F64)⟩ : Point)⟩,
  /- 8 grid_spacing -/ ⟨.point, (⟨(⟨0x3ff0000000000000#64⟩ : F64), (⟨0x3ff0000000000000#64⟩ : F64), (⟨0x0000000000000000#64⟩ : F64)⟩ : Point)⟩,
  /- 9 view_direction -/ ⟨.point, (⟨(⟨0x0000000000000000#64⟩ : F64), (⟨0x0000000000000000#64⟩ : F64), (⟨0x3ff0000000000000#64⟩ : F64)⟩ : Point)⟩,
  /- 10 target_view_point -/ ⟨.point, (⟨(⟨0x0000000000000000#64⟩ : F64), (⟨0x0000000000000000#64⟩ : F64), (⟨0x0000000000000000#64⟩ : F64)⟩ : Point)⟩,
  /- 11 view_height -/ ⟨.f64, (⟨0x3ff0000000000000#64⟩ : F64)⟩,
  /- 12 view_port_aspect_ratio -/ ⟨.f64, (⟨0x3ff0000000000000#64⟩ : F64)⟩,
  /- 13 lens_length -/ ⟨.f64, (⟨0x4049000000000000#64⟩ : F64)⟩,
  /- 14 front_clipping_plane -/ ⟨.f64, (⟨0x0000000000000000#64⟩ : F64)⟩,
  /- 15 back_clipping_plane -/ ⟨.f64, (⟨0x0000000000000000#64⟩ : F64)⟩,
  /- 16 snap_rotation_angle -/ ⟨.f64, (⟨0x0000000000000000#64⟩ : F64)⟩,
  /- 17 view_twist_angle -/ ⟨.f64, (⟨0x0000000000000000#64⟩ : F64)⟩,
  /- 18 view_mode -/ ⟨.i32, (0#32 : I32)⟩,
  /- 19 circle_sides -/ ⟨.i32, (1000#32 : BitVec 32)⟩,
  /- 20 fast_zoom -/ ⟨.bool, (true : Bool)⟩,
  /- 21 ucs_icon -/ ⟨.i16, (3#16 : BitVec 16)⟩,
  /- 22 snap_on -/ ⟨.bool, (false : Bool)⟩,
  /- 23 grid_on -/ ⟨.bool, (false : Bool)⟩,
  /- 24 snap_style -/ ⟨.enum E.snapStyle, (⟨0, by decide⟩ : Fin (List.length E.snapStyle))⟩,
  /- 25 snap_isometric_plane -/ ⟨.enum E.snapIsometricPlane, (⟨0, by decide⟩ : Fin (List.length E.snapIsometricPlane))⟩,
  /- 26 plot_style_sheet -/ ⟨.str, ([] : Str)⟩,
  /- 27 render_mode -/ ⟨.enum E.viewRenderMode, (⟨0, by decide⟩ : Fin (List.length E.viewRenderMode))⟩,
  /- 28 has_own_ucs -/ ⟨.bool, (false : Bool)⟩,
  /- 29 ucs_origin -/ ⟨.point, (⟨(⟨0x0000000000000000#64⟩ : F64), (⟨0x0000000000000000#64⟩ : F64), (⟨0x0000000000000000#64⟩ : F64)⟩ : Point)⟩,
  /- 30 ucs_x_axis -/ ⟨.point, (⟨(⟨0x3ff0000000000000#64⟩ : F64), (⟨0x0000000000000000#64⟩ : F64), (⟨0x0000000000000000#64⟩ : F64)⟩ : Point)⟩,
  /- 31 ucs_y_axis -/ ⟨.point, (⟨(⟨0x0000000000000000#64⟩ : F64), (⟨0x3ff0000000000000#64⟩ : F64), (⟨0x0000000000000000#64⟩ : F64)⟩ : Point)⟩,
  /- 32 orthographic_view_type -/ ⟨.enum E.orthographicViewType, (⟨0, by decide⟩ : Fin (List.length E.orthographicViewType))⟩,
  /- 33 ucs_elevation -/ ⟨.f64, (⟨0x0000000000000000#64⟩ : F64)⟩,
  /- 34 __ucs_handle -/ ⟨.handle, (0#64 : Handle)⟩,
  /- 35 __base_ucs_handle -/ ⟨.handle, (0#64 : Handle)⟩,
  /- 36 shade_plot_setting -/ ⟨.enum E.shadeEdgeMode, (⟨0, by decide⟩ : Fin (List.length E.shadeEdgeMode))⟩,
  /- 37 major_grid_lines -/ ⟨.bool, (false : Bool)⟩,
  /- 38 __background_object_handle -/ ⟨.handle, (0#64 : Handle)⟩,
  /- 39 __shade_plot_object_handle -/ ⟨.handle, (0#64 : Handle)⟩,
  /- 40 __visual_style_object_handle -/ ⟨.handle, (0#64 : Handle)⟩,
  /- 41 is_default_lighting_on -/ ⟨.bool, (true : Bool)⟩,
  /- 42 default_lighting_type -/ ⟨.enum E.defaultLightingType, (⟨0, by decide⟩ : Fin (List.length E.defaultLightingType))⟩,
  /- 43 brightness -/ ⟨.f64, (⟨0x0000000000000000#64⟩ : F64)⟩,
  /- 44 contrast -/ ⟨.f64, (⟨0x0000000000000000#64⟩ : F64)⟩,
  /- 45 ambient_color -/ ⟨.i16, (7#16 : I16)⟩,
  /- 46 ambient_color_i32 -/ ⟨.i32, (0#32 : BitVec 32)⟩,
  /- 47 ambient_color_name -/ ⟨.str, (str!"BLACK" : Str)⟩]

/-- Match arms of the reader of `ViewPort`. -/
def Tables.viewPortArms : List (Arm Tables.viewPortDecls) := [
  ⟨2, .on 0 (.set .str)⟩,
  ⟨5, .on 1 (.set .handle)⟩,
  ⟨330, .on 2 (.set .handle)⟩,
  ⟨10, .on 3 (.axis .x)⟩,
  ⟨20, .on 3 (.axis .y)⟩,
  ⟨11, .on 4 (.axis .x)⟩,
  ⟨21, .on 4 (.axis .y)⟩,
  ⟨12, .on 5 (.axis .x)⟩,
  ⟨22, .on 5 (.axis .y)⟩,
  ⟨13, .on 6 (.axis .x)⟩,
  ⟨23, .on 6 (.axis .y)⟩,
  ⟨14, .on 7 (.axis .x)⟩,
  ⟨24, .on 7 (.axis .y)⟩,
  ⟨15, .on 8 (.axis .x)⟩,
  ⟨25, .on 8 (.axis .y)⟩,
  ⟨16, .on 9 (.axis .x)⟩,
  ⟨26, .on 9 (.axis .y)⟩,
  ⟨36, .on 9 (.axis .z)⟩,
  ⟨17, .on 10 (.axis .x)⟩,
  ⟨27, .on 10 (.axis .y)⟩,
  ⟨37, .on 10 (.axis .z)⟩,
  ⟨40, .on 11 (.set .f64)⟩,
  ⟨41, .on 12 (.set .f64)⟩,
  ⟨42, .on 13 (.set .f64)⟩,
  ⟨43, .on 14 (.set .f64)⟩,
  ⟨44, .on 15 (.set .f64)⟩,
  ⟨45, .on 11 (.set .f64)⟩,
  ⟨50, .on 16 (.set .f64)⟩,
  ⟨51, .on 17 (.set .f64)⟩,
  ⟨71, .on 18 (.set .i32OfI16)⟩,
  ⟨72, .on 19 (.set .i32OfI16)⟩,
  ⟨73, .on 20 (.set .asBool)⟩,
  ⟨74, .on 21 (.set .i16)⟩,
  ⟨75, .on 22 (.set .asBool)⟩,
  ⟨76, .on 23 (.set .asBool)⟩,
  ⟨77, .on 24 (.set (.enumI16 E.snapStyle ⟨0, by decide⟩))⟩,
  ⟨78, .on 25 (.set (.enumI16 E.snapIsometricPlane ⟨0, by decide⟩))⟩,
  ⟨1, .on 26 (.set .str)⟩,
  ⟨281, .on 27 (.set (.enumI16 E.viewRenderMode ⟨0, by decide⟩))⟩,
  ⟨65, .on 28 (.set .asBool)⟩,
  ⟨110, .on 29 (.axis .x)⟩,
  ⟨120, .on 29 (.axis .y)⟩,
  ⟨130, .on 29 (.axis .z)⟩,
  ⟨111, .on 30 (.axis .x)⟩,
  ⟨121, .on 30 (.axis .y)⟩,
  ⟨131, .on 30 (.axis .z)⟩,
  ⟨112, .on 31 (.axis .x)⟩,
  ⟨122, .on 31 (.axis .y)⟩,
  ⟨132, .on 31 (.axis .z)⟩,
  ⟨79, .on 32 (.set (.enumI16 E.orthographicViewType ⟨0, by decide⟩))⟩,
  ⟨146, .on 33 (.set .f64)⟩,
  ⟨345, .on 34 (.set .handle)⟩,
  ⟨346, .on 35 (.set .handle)⟩,
  ⟨170, .on 36 (.set (.enumI16 E.shadeEdgeMode ⟨0, by decide⟩))⟩,
  ⟨61, .on 37 (.set .asBool)⟩,
  ⟨332, .on 38 (.set .handle)⟩,
  ⟨333, .on 39 (.set .handle)⟩,
  ⟨348, .on 40 (.set .handle)⟩,
  ⟨292, .on 41 (.set .bool)⟩,
  ⟨282, .on 42 (.set (.enumI16 E.defaultLightingType ⟨0, by decide⟩))⟩,
  ⟨141, .on 43 (.set .f64)⟩,
  ⟨142, .on 44 (.set .f64)⟩,
  ⟨62, .on 45 (.set .i16)⟩,
  ⟨421, .on 46 (.set .i32)⟩,
  ⟨431, .on 47 (.set .str)⟩]

/-- The statement for the handle of `ViewPort` (build/table_generator.rs:386-389). -/
def Tables.viewPortHead (writeHandles : Bool) : List (GCmd Tables.viewPortDecls) :=
  [{ cmd := .field 1 (.one 5 .handle), cond := fun _ => writeHandles }]

/-- Write statements of `ViewPort` (build/table_generator.rs:397-). -/
def Tables.viewPortCmds : List (GCmd Tables.viewPortDecls) := [
  { cmd := .const (.newStr 100 str!"AcDbSymbolTableRecord") },
  { cmd := .const (.newStr 100 str!"AcDbViewportTableRecord") },
  { cmd := .field 0 (.one 2 .str) },
  { cmd := .const (.newI16 70 0#16) },
  { cmd := .field 3 (.axes [(.x, 10), (.y, 20)]) },
  { cmd := .field 4 (.axes [(.x, 11), (.y, 21)]) },
  { cmd := .field 5 (.axes [(.x, 12), (.y, 22)]) },
  { cmd := .field 6 (.axes [(.x, 13), (.y, 23)]) },
  { cmd := .field 7 (.axes [(.x, 14), (.y, 24)]) },
  { cmd := .field 8 (.axes [(.x, 15), (.y, 25)]) },
  { cmd := .field 9 (.axes [(.x, 16), (.y, 26), (.z, 36)]) },
  { cmd := .field 10 (.axes [(.x, 17), (.y, 27), (.z, 37)]) },
  { cmd := .field 11 (.one 40 .f64), max := (some .r2004) },
  { cmd := .field 12 (.one 41 .f64), max := (some .r2004) },
  { cmd := .field 13 (.one 42 .f64) },
  { cmd := .field 14 (.one 43 .f64) },
  { cmd := .field 15 (.one 44 .f64) },
  { cmd := .field 11 (.one 45 .f64), min := (some .r2007) },
  { cmd := .field 16 (.one 50 .f64) },
  { cmd := .field 17 (.one 51 .f64) },
  { cmd := .field 18 (.one 71 .i32AsI16) },
  { cmd := .field 19 (.one 72 .i32AsI16) },
  { cmd := .field 20 (.one 73 .asI16), max := (some .r2004) },
  { cmd := .field 21 (.one 74 .i16) },
  { cmd := .field 22 (.one 75 .asI16), max := (some .r2004) },
  { cmd := .field 23 (.one 76 .asI16), max := (some .r2004) },
  { cmd := .field 24 (.one 77 (.enumI16 E.snapStyle)), max := (some .r2004) },
  { cmd := .field 25 (.one 78 (.enumI16 E.snapIsometricPlane)), max := (some .r2004) },
  { cmd := .field 26 (.one 1 .str), min := (some .r2007) },
  { cmd := .field 27 (.one 281 (.enumI16 E.viewRenderMode)), min := (some .r2000) },
  { cmd := .field 28 (.one 65 .asI16), min := (some .r2000), max := (some .r2004) },
  { cmd := .field 29 (.axes [(.x, 110), (.y, 120), (.z, 130)]), min := (some .r2000), cond := fun r => r 28 },
  { cmd := .field 30 (.axes [(.x, 111), (.y, 121), (.z, 131)]), min := (some .r2000), cond := fun r => r 28 },
  { cmd := .field 31 (.axes [(.x, 112), (.y, 122), (.z, 132)]), min := (some .r2000), cond := fun r => r 28 },
  { cmd := .field 32 (.one 79 (.enumI16 E.orthographicViewType)), min := (some .r2000), cond := fun r => r 28 },
  { cmd := .field 33 (.one 146 .f64), min := (some .r2000), cond := fun r => r 28 },
  { cmd := .field 34 (.one 345 .handle), min := (some .r2000), cond := fun r => r 28 },
  { cmd := .field 35 (.one 346 .handle), min := (some .r2000), cond := fun r => r 28 },
  { cmd := .field 36 (.one 170 (.enumI16 E.shadeEdgeMode)), min := (some .r2007) },
  { cmd := .field 37 (.one 61 .asI16), min := (some .r2007) },
  { cmd := .field 38 (.one 332 .handle), min := (some .r2007) },
  { cmd := .field 39 (.one 333 .handle), min := (some .r2007) },
  { cmd := .field 40 (.one 348 .handle), min := (some .r2007) },
  { cmd := .field 41 (.one 292 .bool), min := (some .r2007) },
  { cmd := .field 42 (.one 282 (.enumI16 E.defaultLightingType)), min := (some .r2007) },
  { cmd := .field 43 (.one 141 .f64), min := (some .r2007) },
  { cmd := .field 44 (.one 142 .f64), min := (some .r2007) },
  { cmd := .field 45 (.one 62 .i16), min := (some .r2007), cond := fun r => (fun x : I16 => decide (x ≠ 7#16)) (r 45) },
  { cmd := .field 46 (.one 421 .i32), min := (some .r2007), cond := fun r => (fun x : I32 => decide (x ≠ 0#32)) (r 46) },
  { cmd := .field 47 (.one 431 .str), min := (some .r2007), cond := fun r => (fun x : Str => decide (x ≠ str!"BLACK")) (r 47) }]

end Dxf
