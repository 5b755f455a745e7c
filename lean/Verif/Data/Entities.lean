import Verif.Model.Record
import Verif.Data.Enums

/-! Generated from spec/EntitiesSpec.xml by tools/gen_specs.py; do not edit. -/

set_option maxRecDepth 4000

namespace Dxf

/-- Fields of `EntityCommon` without `extension_data_groups` and `x_data`. -/
def commonDecls : List Decl := [
  /- 0 handle -/ ⟨.handle, (0#64 : Handle)⟩,
  /- 1 __owner_handle -/ ⟨.handle, (0#64 : Handle)⟩,
  /- 2 is_in_paper_space -/ ⟨.bool, (false : Bool)⟩,
  /- 3 layer -/ ⟨.str, (str!"0" : Str)⟩,
  /- 4 line_type_name -/ ⟨.str, (str!"BYLAYER" : Str)⟩,
  /- 5 elevation -/ ⟨.f64, (⟨0x0000000000000000#64⟩ : F64)⟩,
  /- 6 __material_handle -/ ⟨.handle, (0#64 : Handle)⟩,
  /- 7 color -/ ⟨.i16, (256#16 : I16)⟩,
  /- 8 lineweight_enum_value -/ ⟨.i16, (0#16 : BitVec 16)⟩,
  /- 9 line_type_scale -/ ⟨.f64, (⟨0x3ff0000000000000#64⟩ : F64)⟩,
  /- 10 is_visible -/ ⟨.bool, (true : Bool)⟩,
  /- 11 image_byte_count -/ ⟨.i32, (0#32 : BitVec 32)⟩,
  /- 12 preview_image_data -/ ⟨.list .bytes, ([] : List (List Byte))⟩,
  /- 13 color_24_bit -/ ⟨.i32, (0#32 : BitVec 32)⟩,
  /- 14 color_name -/ ⟨.str, ([] : Str)⟩,
  /- 15 transparency -/ ⟨.i32, (0#32 : BitVec 32)⟩,
  /- 16 __plot_style_handle -/ ⟨.handle, (0#64 : Handle)⟩,
  /- 17 shadow_mode -/ ⟨.enum E.shadowMode, (⟨0, by decide⟩ : Fin (List.length E.shadowMode))⟩]

section
variable (ds : List Decl)

/-- Match arms of `EntityCommon::apply_individual_pair` (build/entity_generator.rs:158-199). -/
def commonArms : List (Arm (commonDecls ++ ds)) := [
  ⟨5, .on 0 (.set .handle)⟩,
  ⟨330, .on 1 (.set .handle)⟩,
  ⟨67, .on 2 (.set .asBool)⟩,
  ⟨8, .on 3 (.set .str)⟩,
  ⟨6, .on 4 (.set .str)⟩,
  ⟨38, .on 5 (.set .f64)⟩,
  ⟨347, .on 6 (.set .handle)⟩,
  ⟨62, .on 7 (.set .i16)⟩,
  ⟨370, .on 8 (.set .i16)⟩,
  ⟨48, .on 9 (.set .f64)⟩,
  ⟨60, .on 10 (.set .notBool)⟩,
  ⟨92, .on 11 (.set .i32)⟩,
  ⟨310, .on 12 (.push .bytes)⟩,
  ⟨420, .on 13 (.set .i32)⟩,
  ⟨430, .on 14 (.set .str)⟩,
  ⟨440, .on 15 (.set .i32)⟩,
  ⟨390, .on 16 (.set .handle)⟩,
  ⟨284, .on 17 (.set (.enumI16 E.shadowMode ⟨0, by decide⟩))⟩]

/-- The statement for the handle. -/
def commonHead (writeHandles : Bool) : List (GCmd (commonDecls ++ ds)) :=
  [{ cmd := .field 0 (.one 5 .handle), cond := fun _ => writeHandles }]

/-- The statements of `EntityCommon::add_code_pairs` after the extension groups (build/entity_generator.rs:201-208). -/
def commonCmds (writeHandles : Bool) : List (GCmd (commonDecls ++ ds)) := [
  { cmd := .field 1 (.one 330 .handle), cond := fun r => writeHandles && !(Ty.rustEq .handle (r 1) (0#64 : Handle)) },
  { cmd := .const (.newStr 100 str!"AcDbEntity"), min := (some .r13) },
  { cmd := .field 2 (.one 67 .asI16), min := (some .r12), cond := fun r => (r 2 : Bool) },
  { cmd := .field 3 (.one 8 .str) },
  { cmd := .field 4 (.one 6 .str), cond := fun r => !(Ty.rustEq .str (r 4) (str!"BYLAYER" : Str)) },
  { cmd := .field 5 (.one 38 .f64), max := (some .r12), cond := fun r => !(Ty.rustEq .f64 (r 5) (⟨0x0000000000000000#64⟩ : F64)) },
  { cmd := .field 6 (.one 347 .handle), min := (some .r2007) },
  { cmd := .field 7 (.one 62 .i16), cond := fun r => !(Ty.rustEq .i16 (r 7) (256#16 : I16)) },
  { cmd := .field 8 (.one 370 .i16), min := (some .r2000) },
  { cmd := .field 9 (.one 48 .f64), min := (some .r13), cond := fun r => !(Ty.rustEq .f64 (r 9) (⟨0x3ff0000000000000#64⟩ : F64)) },
  { cmd := .field 10 (.one 60 .notI16), min := (some .r13), cond := fun r => !(r 10 : Bool) },
  { cmd := .field 11 (.one 92 .i32), min := (some .r2000), cond := fun r => !(Ty.rustEq .i32 (r 11) (0#32 : BitVec 32)) },
  { cmd := .field 12 (.many 310 .bytes), min := (some .r2000) },
  { cmd := .field 13 (.one 420 .i32), min := (some .r2004), cond := fun r => !(Ty.rustEq .i32 (r 13) (0#32 : BitVec 32)) },
  { cmd := .field 14 (.one 430 .str), min := (some .r2004) },
  { cmd := .field 15 (.one 440 .i32), min := (some .r2004) },
  { cmd := .field 16 (.one 390 .handle), min := (some .r2007) },
  { cmd := .field 17 (.one 284 (.enumI16 E.shadowMode)), min := (some .r2007) }]

end

/-- Fields of `Face3D`. -/
def Ent.face3DSpec : List Decl := [
  /- 18 first_corner -/ ⟨.point, (⟨(⟨0x0000000000000000#64⟩ : F64), (⟨0x0000000000000000#64⟩ : F64), (⟨0x0000000000000000#64⟩ : F64)⟩ : Point)⟩,
  /- 19 second_corner -/ ⟨.point, (⟨(⟨0x0000000000000000#64⟩ : F64), (⟨0x0000000000000000#64⟩ : F64), (⟨0x0000000000000000#64⟩ : F64)⟩ : Point)⟩,
  /- 20 third_corner -/ ⟨.point, (⟨(⟨0x0000000000000000#64⟩ : F64), (⟨0x0000000000000000#64⟩ : F64), (⟨0x0000000000000000#64⟩ : F64)⟩ : Point)⟩,
  /- 21 fourth_corner -/ ⟨.point, (⟨(⟨0x0000000000000000#64⟩ : F64), (⟨0x0000000000000000#64⟩ : F64), (⟨0x0000000000000000#64⟩ : F64)⟩ : Point)⟩,
  /- 22 edge_flags -/ ⟨.i32, (0#32 : BitVec 32)⟩]

/-- Match arms of the reader of `Face3D`. -/
def Ent.face3DArms : List (Arm (commonDecls ++ Ent.face3DSpec)) := [
  ⟨10, .on 18 (.axis .x)⟩,
  ⟨20, .on 18 (.axis .y)⟩,
  ⟨30, .on 18 (.axis .z)⟩,
  ⟨11, .on 19 (.axis .x)⟩,
  ⟨21, .on 19 (.axis .y)⟩,
  ⟨31, .on 19 (.axis .z)⟩,
  ⟨12, .on 20 (.axis .x)⟩,
  ⟨22, .on 20 (.axis .y)⟩,
  ⟨32, .on 20 (.axis .z)⟩,
  ⟨13, .on 21 (.axis .x)⟩,
  ⟨23, .on 21 (.axis .y)⟩,
  ⟨33, .on 21 (.axis .z)⟩,
  ⟨70, .on 22 (.set .i32OfI16)⟩] ++ commonArms Ent.face3DSpec

/-- The specific write statements of `Face3D`. -/
def Ent.face3DCmds : List (GCmd (commonDecls ++ Ent.face3DSpec)) := [
  { cmd := .const (.newStr 100 str!"AcDbFace"), min := (some .r13) },
  { cmd := .field 18 (.axes [(.x, 10), (.y, 20), (.z, 30)]) },
  { cmd := .field 19 (.axes [(.x, 11), (.y, 21), (.z, 31)]) },
  { cmd := .field 20 (.axes [(.x, 12), (.y, 22), (.z, 32)]) },
  { cmd := .field 21 (.axes [(.x, 13), (.y, 23), (.z, 33)]) },
  { cmd := .field 22 (.one 70 .i32AsI16), cond := fun r => !(Ty.rustEq .i32 (r 22) (0#32 : BitVec 32)) }]

/-- Fields of `Solid3D`. -/
def Ent.solid3DSpec : List Decl := [
  /- 18 format_version_number -/ ⟨.i16, (1#16 : BitVec 16)⟩,
  /- 19 custom_data -/ ⟨.list .str, ([] : List (Str))⟩,
  /- 20 custom_data2 -/ ⟨.list .str, ([] : List (Str))⟩,
  /- 21 __history_object_handle -/ ⟨.handle, (0#64 : Handle)⟩]

/-- Match arms of the reader of `Solid3D`. -/
def Ent.solid3DArms : List (Arm (commonDecls ++ Ent.solid3DSpec)) := [
  ⟨70, .on 18 (.set .i16)⟩,
  ⟨1, .on 19 (.push .str)⟩,
  ⟨3, .on 20 (.push .str)⟩,
  ⟨350, .on 21 (.set .handle)⟩] ++ commonArms Ent.solid3DSpec

/-- The specific write statements of `Solid3D`. -/
def Ent.solid3DCmds : List (GCmd (commonDecls ++ Ent.solid3DSpec)) := [
  { cmd := .const (.newStr 100 str!"AcDbModelerGeometry") },
  { cmd := .field 18 (.one 70 .i16) },
  { cmd := .field 19 (.many 1 .str) },
  { cmd := .field 20 (.many 3 .str) },
  { cmd := .const (.newStr 100 str!"AcDb3dSolid"), min := (some .r2007) },
  { cmd := .field 21 (.one 350 .handle), min := (some .r2007) }]

/-- Fields of `ProxyEntity`. -/
def Ent.proxyEntitySpec : List Decl := [
  /- 18 proxy_entity_class_id -/ ⟨.i32, (498#32 : BitVec 32)⟩,
  /- 19 application_entity_class_id -/ ⟨.i32, (500#32 : BitVec 32)⟩,
  /- 20 graphics_data_size -/ ⟨.i32, (0#32 : BitVec 32)⟩,
  /- 21 graphics_data_string -/ ⟨.list .bytes, ([] : List (List Byte))⟩,
  /- 22 entity_data_size -/ ⟨.i32, (0#32 : BitVec 32)⟩,
  /- 23 entity_data_string -/ ⟨.list .bytes, ([] : List (List Byte))⟩,
  /- 24 object_id_1 -/ ⟨.list .str, ([] : List (Str))⟩,
  /- 25 object_id_2 -/ ⟨.list .str, ([] : List (Str))⟩,
  /- 26 object_id_3 -/ ⟨.list .str, ([] : List (Str))⟩,
  /- 27 object_id_4 -/ ⟨.list .str, ([] : List (Str))⟩,
  /- 28 terminator -/ ⟨.i32, (0#32 : BitVec 32)⟩,
  /- 29 __object_drawing_format -/ ⟨.i32, (0#32 : BitVec 32)⟩,
  /- 30 original_data_format_is_dxf -/ ⟨.bool, (true : Bool)⟩]

/-- Match arms of the reader of `ProxyEntity`. -/
def Ent.proxyEntityArms : List (Arm (commonDecls ++ Ent.proxyEntitySpec)) := [
  ⟨90, .on 18 (.set .i32)⟩,
  ⟨91, .on 19 (.set .i32)⟩,
  ⟨92, .on 20 (.set .i32)⟩,
  ⟨310, .on 21 (.push .bytes)⟩,
  ⟨93, .on 22 (.set .i32)⟩,
  ⟨310, .on 23 (.push .bytes)⟩,
  ⟨330, .on 24 (.push .str)⟩,
  ⟨340, .on 25 (.push .str)⟩,
  ⟨350, .on 26 (.push .str)⟩,
  ⟨360, .on 27 (.push .str)⟩,
  ⟨94, .on 28 (.set .i32)⟩,
  ⟨95, .on 29 (.set .i32)⟩,
  ⟨70, .on 30 (.set .asBool)⟩] ++ commonArms Ent.proxyEntitySpec

/-- The specific write statements of `ProxyEntity`. -/
def Ent.proxyEntityCmds : List (GCmd (commonDecls ++ Ent.proxyEntitySpec)) := [
  { cmd := .const (.newStr 100 str!"AcDbProxyEntity"), min := (some .r13) },
  { cmd := .field 18 (.one 90 .i32) },
  { cmd := .field 19 (.one 91 .i32) },
  { cmd := .field 20 (.one 92 .i32) },
  { cmd := .field 21 (.many 310 .bytes) },
  { cmd := .field 22 (.one 93 .i32) },
  { cmd := .field 23 (.many 310 .bytes) },
  { cmd := .field 24 (.many 330 .str) },
  { cmd := .field 25 (.many 340 .str) },
  { cmd := .field 26 (.many 350 .str) },
  { cmd := .field 27 (.many 360 .str) },
  { cmd := .field 28 (.one 94 .i32) },
  { cmd := .field 29 (.one 95 .i32), min := (some .r2000) },
  { cmd := .field 30 (.one 70 .asI16), min := (some .r2000) }]

/-- Fields of `Arc`. -/
def Ent.arcSpec : List Decl := [
  /- 18 thickness -/ ⟨.f64, (⟨0x0000000000000000#64⟩ : F64)⟩,
  /- 19 center -/ ⟨.point, (⟨(⟨0x0000000000000000#64⟩ : F64), (⟨0x0000000000000000#64⟩ : F64), (⟨0x0000000000000000#64⟩ : F64)⟩ : Point)⟩,
  /- 20 radius -/ ⟨.f64, (⟨0x0000000000000000#64⟩ : F64)⟩,
  /- 21 normal -/ ⟨.point, (⟨(⟨0x0000000000000000#64⟩ : F64), (⟨0x0000000000000000#64⟩ : F64), (⟨0x3ff0000000000000#64⟩ : F64)⟩ : Point)⟩,
  /- 22 start_angle -/ ⟨.f64, (⟨0x0000000000000000#64⟩ : F64)⟩,
  /- 23 end_angle -/ ⟨.f64, (⟨0x4076800000000000#64⟩ : F64)⟩]

/-- Match arms of the reader of `Arc`. -/
def Ent.arcArms : List (Arm (commonDecls ++ Ent.arcSpec)) := [
  ⟨39, .on 18 (.set .f64)⟩,
  ⟨10, .on 19 (.axis .x)⟩,
  ⟨20, .on 19 (.axis .y)⟩,
  ⟨30, .on 19 (.axis .z)⟩,
  ⟨40, .on 20 (.set .f64)⟩,
  ⟨210, .on 21 (.axis .x)⟩,
  ⟨220, .on 21 (.axis .y)⟩,
  ⟨230, .on 21 (.axis .z)⟩,
  ⟨50, .on 22 (.set .f64)⟩,
  ⟨51, .on 23 (.set .f64)⟩] ++ commonArms Ent.arcSpec

/-- The specific write statements of `Arc`. -/
def Ent.arcCmds : List (GCmd (commonDecls ++ Ent.arcSpec)) := [
  { cmd := .const (.newStr 100 str!"AcDbCircle") },
  { cmd := .field 18 (.one 39 .f64), cond := fun r => !(Ty.rustEq .f64 (r 18) (⟨0x0000000000000000#64⟩ : F64)) },
  { cmd := .field 19 (.axes [(.x, 10), (.y, 20), (.z, 30)]) },
  { cmd := .field 20 (.one 40 .f64) },
  { cmd := .field 21 (.axes [(.x, 210), (.y, 220), (.z, 230)]), cond := fun r => !(Ty.rustEq .point (r 21) (⟨(⟨0x0000000000000000#64⟩ : F64), (⟨0x0000000000000000#64⟩ : F64), (⟨0x3ff0000000000000#64⟩ : F64)⟩ : Point)) },
  { cmd := .const (.newStr 100 str!"AcDbArc") },
  { cmd := .field 22 (.one 50 .f64) },
  { cmd := .field 23 (.one 51 .f64) }]

/-- Fields of `ArcAlignedText`. -/
def Ent.arcAlignedTextSpec : List Decl := [
  /- 18 text -/ ⟨.str, ([] : Str)⟩,
  /- 19 font_name -/ ⟨.str, ([] : Str)⟩,
  /- 20 bigfont_name -/ ⟨.str, ([] : Str)⟩,
  /- 21 text_style_name -/ ⟨.str, ([] : Str)⟩,
  /- 22 center_point -/ ⟨.point, (⟨(⟨0x0000000000000000#64⟩ : F64), (⟨0x0000000000000000#64⟩ : F64), (⟨0x0000000000000000#64⟩ : F64)⟩ : Point)⟩,
  /- 23 arc_radius -/ ⟨.f64, (⟨0x0000000000000000#64⟩ : F64)⟩,
  /- 24 width_factor -/ ⟨.f64, (⟨0x3ff0000000000000#64⟩ : F64)⟩,
  /- 25 text_height -/ ⟨.f64, (⟨0x0000000000000000#64⟩ : F64)⟩,
  /- 26 character_spacing -/ ⟨.f64, (⟨0x0000000000000000#64⟩ : F64)⟩,
  /- 27 offset_from_arc -/ ⟨.f64, (⟨0x0000000000000000#64⟩ : F64)⟩,
  /- 28 right_offset -/ ⟨.f64, (⟨0x0000000000000000#64⟩ : F64)⟩,
  /- 29 left_offset -/ ⟨.f64, (⟨0x0000000000000000#64⟩ : F64)⟩,
  /- 30 start_angle -/ ⟨.f64, (⟨0x0000000000000000#64⟩ : F64)⟩,
  /- 31 end_angle -/ ⟨.f64, (⟨0x0000000000000000#64⟩ : F64)⟩,
  /- 32 is_character_order_reversed -/ ⟨.bool, (false : Bool)⟩,
  /- 33 direction_flag -/ ⟨.i16, (0#16 : BitVec 16)⟩,
  /- 34 alignment_flag -/ ⟨.i16, (0#16 : BitVec 16)⟩,
  /- 35 side_flag -/ ⟨.i16, (0#16 : BitVec 16)⟩,
  /- 36 is_bold -/ ⟨.bool, (false : Bool)⟩,
  /- 37 is_italic -/ ⟨.bool, (false : Bool)⟩,
  /- 38 is_underline -/ ⟨.bool, (false : Bool)⟩,
  /- 39 character_set_value -/ ⟨.i16, (0#16 : BitVec 16)⟩,
  /- 40 pitch_and_family_value -/ ⟨.i16, (0#16 : BitVec 16)⟩,
  /- 41 font_type -/ ⟨.enum E.fontType, (⟨0, by decide⟩ : Fin (List.length E.fontType))⟩,
  /- 42 color_index -/ ⟨.i32, (0#32 : BitVec 32)⟩,
  /- 43 extrusion_direction -/ ⟨.point, (⟨(⟨0x0000000000000000#64⟩ : F64), (⟨0x0000000000000000#64⟩ : F64), (⟨0x3ff0000000000000#64⟩ : F64)⟩ : Point)⟩,
  /- 44 wizard_flag -/ ⟨.i16, (0#16 : BitVec 16)⟩]

/-- Match arms of the reader of `ArcAlignedText`. -/
def Ent.arcAlignedTextArms : List (Arm (commonDecls ++ Ent.arcAlignedTextSpec)) := [
  ⟨1, .on 18 (.set .str)⟩,
  ⟨2, .on 19 (.set .str)⟩,
  ⟨3, .on 20 (.set .str)⟩,
  ⟨7, .on 21 (.set .str)⟩,
  ⟨10, .on 22 (.axis .x)⟩,
  ⟨20, .on 22 (.axis .y)⟩,
  ⟨30, .on 22 (.axis .z)⟩,
  ⟨40, .on 23 (.set .f64)⟩,
  ⟨41, .on 24 (.set .f64)⟩,
  ⟨42, .on 25 (.set .f64)⟩,
  ⟨43, .on 26 (.set .f64)⟩,
  ⟨44, .on 27 (.set .f64)⟩,
  ⟨45, .on 28 (.set .f64)⟩,
  ⟨46, .on 29 (.set .f64)⟩,
  ⟨50, .on 30 (.set .f64)⟩,
  ⟨51, .on 31 (.set .f64)⟩,
  ⟨70, .on 32 (.set .asBool)⟩,
  ⟨71, .on 33 (.set .i16)⟩,
  ⟨72, .on 34 (.set .i16)⟩,
  ⟨73, .on 35 (.set .i16)⟩,
  ⟨74, .on 36 (.set .asBool)⟩,
  ⟨75, .on 37 (.set .asBool)⟩,
  ⟨76, .on 38 (.set .asBool)⟩,
  ⟨77, .on 39 (.set .i16)⟩,
  ⟨78, .on 40 (.set .i16)⟩,
  ⟨79, .on 41 (.set (.enumI16 E.fontType ⟨0, by decide⟩))⟩,
  ⟨90, .on 42 (.set .i32)⟩,
  ⟨210, .on 43 (.axis .x)⟩,
  ⟨220, .on 43 (.axis .y)⟩,
  ⟨230, .on 43 (.axis .z)⟩,
  ⟨280, .on 44 (.set .i16)⟩] ++ commonArms Ent.arcAlignedTextSpec

/-- The specific write statements of `ArcAlignedText`. -/
def Ent.arcAlignedTextCmds : List (GCmd (commonDecls ++ Ent.arcAlignedTextSpec)) := [
  { cmd := .const (.newStr 100 str!"AcDbArcAlignedText"), min := (some .r13) },
  { cmd := .field 18 (.one 1 .str) },
  { cmd := .field 19 (.one 2 .str) },
  { cmd := .field 20 (.one 3 .str) },
  { cmd := .field 21 (.one 7 .str) },
  { cmd := .field 22 (.axes [(.x, 10), (.y, 20), (.z, 30)]) },
  { cmd := .field 23 (.one 40 .f64) },
  { cmd := .field 24 (.one 41 .f64) },
  { cmd := .field 25 (.one 42 .f64) },
  { cmd := .field 26 (.one 43 .f64) },
  { cmd := .field 27 (.one 44 .f64) },
  { cmd := .field 28 (.one 45 .f64) },
  { cmd := .field 29 (.one 46 .f64) },
  { cmd := .field 30 (.one 50 .f64) },
  { cmd := .field 31 (.one 51 .f64) },
  { cmd := .field 32 (.one 70 .asI16) },
  { cmd := .field 33 (.one 71 .i16) },
  { cmd := .field 34 (.one 72 .i16) },
  { cmd := .field 35 (.one 73 .i16) },
  { cmd := .field 36 (.one 74 .asI16) },
  { cmd := .field 37 (.one 75 .asI16) },
  { cmd := .field 38 (.one 76 .asI16) },
  { cmd := .field 39 (.one 77 .i16) },
  { cmd := .field 40 (.one 78 .i16) },
  { cmd := .field 41 (.one 79 (.enumI16 E.fontType)) },
  { cmd := .field 42 (.one 90 .i32) },
  { cmd := .field 43 (.axes [(.x, 210), (.y, 220), (.z, 230)]), cond := fun r => !(Ty.rustEq .point (r 43) (⟨(⟨0x0000000000000000#64⟩ : F64), (⟨0x0000000000000000#64⟩ : F64), (⟨0x3ff0000000000000#64⟩ : F64)⟩ : Point)) },
  { cmd := .field 44 (.one 280 .i16) }]

/-- Fields of `AttributeDefinition`. -/
def Ent.attributeDefinitionSpec : List Decl := [
  /- 18 thickness -/ ⟨.f64, (⟨0x0000000000000000#64⟩ : F64)⟩,
  /- 19 location -/ ⟨.point, (⟨(⟨0x0000000000000000#64⟩ : F64), (⟨0x0000000000000000#64⟩ : F64), (⟨0x0000000000000000#64⟩ : F64)⟩ : Point)⟩,
  /- 20 text_height -/ ⟨.f64, (⟨0x3ff0000000000000#64⟩ : F64)⟩,
  /- 21 value -/ ⟨.str, ([] : Str)⟩,
  /- 22 rotation -/ ⟨.f64, (⟨0x0000000000000000#64⟩ : F64)⟩,
  /- 23 relative_x_scale_factor -/ ⟨.f64, (⟨0x3ff0000000000000#64⟩ : F64)⟩,
  /- 24 oblique_angle -/ ⟨.f64, (⟨0x0000000000000000#64⟩ : F64)⟩,
  /- 25 text_style_name -/ ⟨.str, (str!"STANDARD" : Str)⟩,
  /- 26 text_generation_flags -/ ⟨.i32, (0#32 : BitVec 32)⟩,
  /- 27 horizontal_text_justification -/ ⟨.enum E.horizontalTextJustification, (⟨0, by decide⟩ : Fin (List.length E.horizontalTextJustification))⟩,
  /- 28 second_alignment_point -/ ⟨.point, (⟨(⟨0x0000000000000000#64⟩ : F64), (⟨0x0000000000000000#64⟩ : F64), (⟨0x0000000000000000#64⟩ : F64)⟩ : Point)⟩,
  /- 29 normal -/ ⟨.point, (⟨(⟨0x0000000000000000#64⟩ : F64), (⟨0x0000000000000000#64⟩ : F64), (⟨0x3ff0000000000000#64⟩ : F64)⟩ : Point)⟩,
  /- 30 version -/ ⟨.enum E.version, (⟨0, by decide⟩ : Fin (List.length E.version))⟩,
  /- 31 prompt -/ ⟨.str, ([] : Str)⟩,
  /- 32 text_tag -/ ⟨.str, ([] : Str)⟩,
  /- 33 flags -/ ⟨.i32, (0#32 : BitVec 32)⟩,
  /- 34 field_length -/ ⟨.i16, (0#16 : BitVec 16)⟩,
  /- 35 vertical_text_justification -/ ⟨.enum E.verticalTextJustification, (⟨0, by decide⟩ : Fin (List.length E.verticalTextJustification))⟩,
  /- 36 is_locked_in_block -/ ⟨.bool, (false : Bool)⟩,
  /- 37 keep_duplicate_records -/ ⟨.bool, (false : Bool)⟩,
  /- 38 m_text_flag -/ ⟨.enum E.mTextFlag, (⟨0, by decide⟩ : Fin (List.length E.mTextFlag))⟩,
  /- 39 is_really_locked -/ ⟨.bool, (false : Bool)⟩,
  /- 40 __secondary_attribute_count -/ ⟨.i32, (0#32 : BitVec 32)⟩,
  /- 41 __secondary_attributes_handle -/ ⟨.list .handle, ([] : List (Handle))⟩,
  /- 42 alignment_point -/ ⟨.point, (⟨(⟨0x0000000000000000#64⟩ : F64), (⟨0x0000000000000000#64⟩ : F64), (⟨0x0000000000000000#64⟩ : F64)⟩ : Point)⟩,
  /- 43 annotation_scale -/ ⟨.f64, (⟨0x3ff0000000000000#64⟩ : F64)⟩,
  /- 44 x_record_tag -/ ⟨.str, ([] : Str)⟩]

/-- Match arms of the hand-written reader of `AttributeDefinition` (src/entity.rs:953-). -/
def Ent.attributeDefinitionArms (xrec versionSet : Bool) (n : Nat) : List (Arm (commonDecls ++ Ent.attributeDefinitionSpec)) := [
  ⟨100, .on 999 (.set .ignoreStr)⟩,
  ⟨1, .on 21 (.set .str)⟩,
  ⟨2, bif xrec then .on 44 (.set .str) else .on 32 (.set .str)⟩,
  ⟨3, .on 31 (.set .str)⟩,
  ⟨7, .on 25 (.set .str)⟩,
  ⟨10, bif xrec then .on 42 (.axis .x) else .on 19 (.axis .x)⟩,
  ⟨20, bif xrec then .on 42 (.axis .y) else .on 19 (.axis .y)⟩,
  ⟨30, bif xrec then .on 42 (.axis .z) else .on 19 (.axis .z)⟩,
  ⟨11, .on 28 (.axis .x)⟩,
  ⟨21, .on 28 (.axis .y)⟩,
  ⟨31, .on 28 (.axis .z)⟩,
  ⟨39, .on 18 (.set .f64)⟩,
  ⟨40, bif xrec then .on 43 (.set .f64) else .on 20 (.set .f64)⟩,
  ⟨41, .on 23 (.set .f64)⟩,
  ⟨50, .on 22 (.set .f64)⟩,
  ⟨51, .on 24 (.set .f64)⟩,
  ⟨70, bif xrec then (match n with | 0 => .on 38 (.set (.enumI16 E.mTextFlag ⟨0, by decide⟩)) | 1 => .on 39 (.set .asBool) | 2 => .on 40 (.set .i32OfI16) | _ => .custom [] (fun _ p => .error (.unexpectedCodePair p))) else .on 33 (.set .i32OfI16)⟩,
  ⟨71, .on 26 (.set .i32OfI16)⟩,
  ⟨72, .on 27 (.set (.enumI16 E.horizontalTextJustification ⟨0, by decide⟩))⟩,
  ⟨73, .on 34 (.set .i16)⟩,
  ⟨74, .on 35 (.set (.enumI16 E.verticalTextJustification ⟨0, by decide⟩))⟩,
  ⟨210, .on 29 (.axis .x)⟩,
  ⟨220, .on 29 (.axis .y)⟩,
  ⟨230, .on 29 (.axis .z)⟩,
  ⟨280, bif xrec then .on 37 (.set .asBool) else bif versionSet then .on 36 (.set .asBool) else .on 30 (.set (.enumI16 E.version ⟨0, by decide⟩))⟩,
  ⟨340, .on 41 (.push .handle)⟩] ++ commonArms Ent.attributeDefinitionSpec

/-- The specific write statements of `AttributeDefinition`. -/
def Ent.attributeDefinitionCmds : List (GCmd (commonDecls ++ Ent.attributeDefinitionSpec)) := [
  { cmd := .const (.newStr 100 str!"AcDbText"), min := (some .r13) },
  { cmd := .field 18 (.one 39 .f64), cond := fun r => !(Ty.rustEq .f64 (r 18) (⟨0x0000000000000000#64⟩ : F64)) },
  { cmd := .field 19 (.axes [(.x, 10), (.y, 20), (.z, 30)]) },
  { cmd := .field 20 (.one 40 .f64) },
  { cmd := .field 21 (.one 1 .str) },
  { cmd := .const (.newStr 100 str!"AcDbAttributeDefinition"), min := (some .r13) },
  { cmd := .field 22 (.one 50 .f64), cond := fun r => !(Ty.rustEq .f64 (r 22) (⟨0x0000000000000000#64⟩ : F64)) },
  { cmd := .field 23 (.one 41 .f64), cond := fun r => !(Ty.rustEq .f64 (r 23) (⟨0x3ff0000000000000#64⟩ : F64)) },
  { cmd := .field 24 (.one 51 .f64), cond := fun r => !(Ty.rustEq .f64 (r 24) (⟨0x0000000000000000#64⟩ : F64)) },
  { cmd := .field 25 (.one 7 .str), cond := fun r => !(Ty.rustEq .str (r 25) (str!"STANDARD" : Str)) },
  { cmd := .field 26 (.one 71 .i32AsI16), cond := fun r => !(Ty.rustEq .i32 (r 26) (0#32 : BitVec 32)) },
  { cmd := .field 27 (.one 72 (.enumI16 E.horizontalTextJustification)), cond := fun r => !(Ty.rustEq (.enum E.horizontalTextJustification) (r 27) (⟨0, by decide⟩ : Fin (List.length E.horizontalTextJustification))) },
  { cmd := .field 28 (.axes [(.x, 11), (.y, 21), (.z, 31)]) },
  { cmd := .field 29 (.axes [(.x, 210), (.y, 220), (.z, 230)]), cond := fun r => !(Ty.rustEq .point (r 29) (⟨(⟨0x0000000000000000#64⟩ : F64), (⟨0x0000000000000000#64⟩ : F64), (⟨0x3ff0000000000000#64⟩ : F64)⟩ : Point)) },
  { cmd := .const (.newStr 100 str!"AcDbAttributeDefinition"), min := (some .r13) },
  { cmd := .field 30 (.one 280 (.enumI16 E.version)), min := (some .r2010) },
  { cmd := .field 31 (.one 3 .str) },
  { cmd := .field 32 (.one 2 .str) },
  { cmd := .field 33 (.one 70 .i32AsI16) },
  { cmd := .field 34 (.one 73 .i16), cond := fun r => !(Ty.rustEq .i16 (r 34) (0#16 : BitVec 16)) },
  { cmd := .field 35 (.one 74 (.enumI16 E.verticalTextJustification)), min := (some .r12), cond := fun r => !(Ty.rustEq (.enum E.verticalTextJustification) (r 35) (⟨0, by decide⟩ : Fin (List.length E.verticalTextJustification))) },
  { cmd := .field 36 (.one 280 .asI16), min := (some .r2007) },
  { cmd := .const (.newStr 100 str!"AcDbXrecord"), min := (some .r2007) },
  { cmd := .field 37 (.one 280 .asI16), min := (some .r2007) },
  { cmd := .field 38 (.one 70 (.enumI16 E.mTextFlag)), min := (some .r2007) },
  { cmd := .field 39 (.one 70 .asI16), min := (some .r2007) },
  { cmd := .computed (t := .i32) 70 .i32AsI16 (fun r => BitVec.ofNat 32 ((fun a : List (Handle) => a.length) (r 41))), min := (some .r2007) },
  { cmd := .field 41 (.many 340 .handle), min := (some .r2007) },
  { cmd := .field 42 (.axes [(.x, 10), (.y, 20), (.z, 30)]), min := (some .r2007) },
  { cmd := .field 43 (.one 40 .f64), min := (some .r2007) },
  { cmd := .field 44 (.one 2 .str), min := (some .r2007) }]

/-- Fields of `Attribute`. -/
def Ent.attributeSpec : List Decl := [
  /- 18 thickness -/ ⟨.f64, (⟨0x0000000000000000#64⟩ : F64)⟩,
  /- 19 location -/ ⟨.point, (⟨(⟨0x0000000000000000#64⟩ : F64), (⟨0x0000000000000000#64⟩ : F64), (⟨0x0000000000000000#64⟩ : F64)⟩ : Point)⟩,
  /- 20 text_height -/ ⟨.f64, (⟨0x3ff0000000000000#64⟩ : F64)⟩,
  /- 21 value -/ ⟨.str, ([] : Str)⟩,
  /- 22 version -/ ⟨.enum E.version, (⟨0, by decide⟩ : Fin (List.length E.version))⟩,
  /- 23 attribute_tag -/ ⟨.str, ([] : Str)⟩,
  /- 24 flags -/ ⟨.i32, (0#32 : BitVec 32)⟩,
  /- 25 field_length -/ ⟨.i16, (0#16 : BitVec 16)⟩,
  /- 26 rotation -/ ⟨.f64, (⟨0x0000000000000000#64⟩ : F64)⟩,
  /- 27 relative_x_scale_factor -/ ⟨.f64, (⟨0x3ff0000000000000#64⟩ : F64)⟩,
  /- 28 oblique_angle -/ ⟨.f64, (⟨0x0000000000000000#64⟩ : F64)⟩,
  /- 29 text_style_name -/ ⟨.str, (str!"STANDARD" : Str)⟩,
  /- 30 text_generation_flags -/ ⟨.i32, (0#32 : BitVec 32)⟩,
  /- 31 horizontal_text_justification -/ ⟨.enum E.horizontalTextJustification, (⟨0, by decide⟩ : Fin (List.length E.horizontalTextJustification))⟩,
  /- 32 vertical_text_justification -/ ⟨.enum E.verticalTextJustification, (⟨0, by decide⟩ : Fin (List.length E.verticalTextJustification))⟩,
  /- 33 second_alignment_point -/ ⟨.point, (⟨(⟨0x0000000000000000#64⟩ : F64), (⟨0x0000000000000000#64⟩ : F64), (⟨0x0000000000000000#64⟩ : F64)⟩ : Point)⟩,
  /- 34 normal -/ ⟨.point, (⟨(⟨0x0000000000000000#64⟩ : F64), (⟨0x0000000000000000#64⟩ : F64), (⟨0x3ff0000000000000#64⟩ : F64)⟩ : Point)⟩,
  /- 35 is_locked_in_block -/ ⟨.bool, (false : Bool)⟩,
  /- 36 keep_duplicate_records -/ ⟨.bool, (false : Bool)⟩,
  /- 37 m_text_flag -/ ⟨.enum E.mTextFlag, (⟨0, by decide⟩ : Fin (List.length E.mTextFlag))⟩,
  /- 38 is_really_locked -/ ⟨.bool, (false : Bool)⟩,
  /- 39 __secondary_attribute_count -/ ⟨.i32, (0#32 : BitVec 32)⟩,
  /- 40 __secondary_attributes_handle -/ ⟨.list .handle, ([] : List (Handle))⟩,
  /- 41 alignment_point -/ ⟨.point, (⟨(⟨0x0000000000000000#64⟩ : F64), (⟨0x0000000000000000#64⟩ : F64), (⟨0x0000000000000000#64⟩ : F64)⟩ : Point)⟩,
  /- 42 annotation_scale -/ ⟨.f64, (⟨0x3ff0000000000000#64⟩ : F64)⟩,
  /- 43 x_record_tag -/ ⟨.str, ([] : Str)⟩]

/-- Match arms of the hand-written reader of `Attribute` (src/entity.rs:805-). -/
def Ent.attributeArms (xrec versionSet : Bool) (n : Nat) : List (Arm (commonDecls ++ Ent.attributeSpec)) := [
  ⟨100, .on 999 (.set .ignoreStr)⟩,
  ⟨1, .on 21 (.set .str)⟩,
  ⟨2, bif xrec then .on 43 (.set .str) else .on 23 (.set .str)⟩,
  ⟨7, .on 29 (.set .str)⟩,
  ⟨10, bif xrec then .on 41 (.axis .x) else .on 19 (.axis .x)⟩,
  ⟨20, bif xrec then .on 41 (.axis .y) else .on 19 (.axis .y)⟩,
  ⟨30, bif xrec then .on 41 (.axis .z) else .on 19 (.axis .z)⟩,
  ⟨11, .on 33 (.axis .x)⟩,
  ⟨21, .on 33 (.axis .y)⟩,
  ⟨31, .on 33 (.axis .z)⟩,
  ⟨39, .on 18 (.set .f64)⟩,
  ⟨40, bif xrec then .on 42 (.set .f64) else .on 20 (.set .f64)⟩,
  ⟨41, .on 27 (.set .f64)⟩,
  ⟨50, .on 26 (.set .f64)⟩,
  ⟨51, .on 28 (.set .f64)⟩,
  ⟨70, bif xrec then (match n with | 0 => .on 37 (.set (.enumI16 E.mTextFlag ⟨0, by decide⟩)) | 1 => .on 38 (.set .asBool) | 2 => .on 39 (.set .i32OfI16) | _ => .custom [] (fun _ p => .error (.unexpectedCodePair p))) else .on 24 (.set .i32OfI16)⟩,
  ⟨71, .on 30 (.set .i32OfI16)⟩,
  ⟨72, .on 31 (.set (.enumI16 E.horizontalTextJustification ⟨0, by decide⟩))⟩,
  ⟨73, .on 25 (.set .i16)⟩,
  ⟨74, .on 32 (.set (.enumI16 E.verticalTextJustification ⟨0, by decide⟩))⟩,
  ⟨210, .on 34 (.axis .x)⟩,
  ⟨220, .on 34 (.axis .y)⟩,
  ⟨230, .on 34 (.axis .z)⟩,
  ⟨280, bif xrec then .on 36 (.set .asBool) else bif versionSet then .on 35 (.set .asBool) else .on 22 (.set (.enumI16 E.version ⟨0, by decide⟩))⟩,
  ⟨340, .on 40 (.push .handle)⟩] ++ commonArms Ent.attributeSpec

/-- The specific write statements of `Attribute`. -/
def Ent.attributeCmds : List (GCmd (commonDecls ++ Ent.attributeSpec)) := [
  { cmd := .const (.newStr 100 str!"AcDbText"), min := (some .r13) },
  { cmd := .field 18 (.one 39 .f64), cond := fun r => !(Ty.rustEq .f64 (r 18) (⟨0x0000000000000000#64⟩ : F64)) },
  { cmd := .field 19 (.axes [(.x, 10), (.y, 20), (.z, 30)]) },
  { cmd := .field 20 (.one 40 .f64) },
  { cmd := .field 21 (.one 1 .str) },
  { cmd := .const (.newStr 100 str!"AcDbAttribute"), min := (some .r13) },
  { cmd := .field 22 (.one 280 (.enumI16 E.version)), min := (some .r2010) },
  { cmd := .field 23 (.one 2 .str) },
  { cmd := .field 24 (.one 70 .i32AsI16) },
  { cmd := .field 25 (.one 73 .i16), cond := fun r => !(Ty.rustEq .i16 (r 25) (0#16 : BitVec 16)) },
  { cmd := .field 26 (.one 50 .f64), cond := fun r => !(Ty.rustEq .f64 (r 26) (⟨0x0000000000000000#64⟩ : F64)) },
  { cmd := .field 27 (.one 41 .f64), cond := fun r => !(Ty.rustEq .f64 (r 27) (⟨0x3ff0000000000000#64⟩ : F64)) },
  { cmd := .field 28 (.one 51 .f64), cond := fun r => !(Ty.rustEq .f64 (r 28) (⟨0x0000000000000000#64⟩ : F64)) },
  { cmd := .field 29 (.one 7 .str), cond := fun r => !(Ty.rustEq .str (r 29) (str!"STANDARD" : Str)) },
  { cmd := .field 30 (.one 71 .i32AsI16), cond := fun r => !(Ty.rustEq .i32 (r 30) (0#32 : BitVec 32)) },
  { cmd := .field 31 (.one 72 (.enumI16 E.horizontalTextJustification)), cond := fun r => !(Ty.rustEq (.enum E.horizontalTextJustification) (r 31) (⟨0, by decide⟩ : Fin (List.length E.horizontalTextJustification))) },
  { cmd := .field 32 (.one 74 (.enumI16 E.verticalTextJustification)), min := (some .r12), cond := fun r => !(Ty.rustEq (.enum E.verticalTextJustification) (r 32) (⟨0, by decide⟩ : Fin (List.length E.verticalTextJustification))) },
  { cmd := .field 33 (.axes [(.x, 11), (.y, 21), (.z, 31)]) },
  { cmd := .field 34 (.axes [(.x, 210), (.y, 220), (.z, 230)]), cond := fun r => !(Ty.rustEq .point (r 34) (⟨(⟨0x0000000000000000#64⟩ : F64), (⟨0x0000000000000000#64⟩ : F64), (⟨0x3ff0000000000000#64⟩ : F64)⟩ : Point)) },
  { cmd := .field 35 (.one 280 .asI16), min := (some .r2007) },
  { cmd := .const (.newStr 100 str!"AcDbXrecord"), min := (some .r2007) },
  { cmd := .field 36 (.one 280 .asI16), min := (some .r2007) },
  { cmd := .field 37 (.one 70 (.enumI16 E.mTextFlag)), min := (some .r2007) },
  { cmd := .field 38 (.one 70 .asI16), min := (some .r2007) },
  { cmd := .computed (t := .i32) 70 .i32AsI16 (fun r => BitVec.ofNat 32 ((fun a : List (Handle) => a.length) (r 40))), min := (some .r2007) },
  { cmd := .field 40 (.many 340 .handle), min := (some .r2007) },
  { cmd := .field 41 (.axes [(.x, 10), (.y, 20), (.z, 30)]), min := (some .r2007) },
  { cmd := .field 42 (.one 40 .f64), min := (some .r2007) },
  { cmd := .field 43 (.one 2 .str), min := (some .r2007) }]

/-- Fields of `Body`. -/
def Ent.bodySpec : List Decl := [
  /- 18 format_version_number -/ ⟨.i16, (1#16 : BitVec 16)⟩,
  /- 19 custom_data -/ ⟨.list .str, ([] : List (Str))⟩,
  /- 20 custom_data2 -/ ⟨.list .str, ([] : List (Str))⟩]

/-- Match arms of the reader of `Body`. -/
def Ent.bodyArms : List (Arm (commonDecls ++ Ent.bodySpec)) := [
  ⟨70, .on 18 (.set .i16)⟩,
  ⟨1, .on 19 (.push .str)⟩,
  ⟨3, .on 20 (.push .str)⟩] ++ commonArms Ent.bodySpec

/-- The specific write statements of `Body`. -/
def Ent.bodyCmds : List (GCmd (commonDecls ++ Ent.bodySpec)) := [
  { cmd := .const (.newStr 100 str!"AcDbModelerGeometry"), min := (some .r13) },
  { cmd := .field 18 (.one 70 .i16) },
  { cmd := .field 19 (.many 1 .str) },
  { cmd := .field 20 (.many 3 .str) }]

/-- Fields of `Circle`. -/
def Ent.circleSpec : List Decl := [
  /- 18 thickness -/ ⟨.f64, (⟨0x0000000000000000#64⟩ : F64)⟩,
  /- 19 center -/ ⟨.point, (⟨(⟨0x0000000000000000#64⟩ : F64), (⟨0x0000000000000000#64⟩ : F64), (⟨0x0000000000000000#64⟩ : F64)⟩ : Point)⟩,
  /- 20 radius -/ ⟨.f64, (⟨0x0000000000000000#64⟩ : F64)⟩,
  /- 21 normal -/ ⟨.point, (⟨(⟨0x0000000000000000#64⟩ : F64), (⟨0x0000000000000000#64⟩ : F64), (⟨0x3ff0000000000000#64⟩ : F64)⟩ : Point)⟩]

/-- Match arms of the reader of `Circle`. -/
def Ent.circleArms : List (Arm (commonDecls ++ Ent.circleSpec)) := [
  ⟨39, .on 18 (.set .f64)⟩,
  ⟨10, .on 19 (.axis .x)⟩,
  ⟨20, .on 19 (.axis .y)⟩,
  ⟨30, .on 19 (.axis .z)⟩,
  ⟨40, .on 20 (.set .f64)⟩,
  ⟨210, .on 21 (.axis .x)⟩,
  ⟨220, .on 21 (.axis .y)⟩,
  ⟨230, .on 21 (.axis .z)⟩] ++ commonArms Ent.circleSpec

/-- The specific write statements of `Circle`. -/
def Ent.circleCmds : List (GCmd (commonDecls ++ Ent.circleSpec)) := [
  { cmd := .const (.newStr 100 str!"AcDbCircle"), min := (some .r13) },
  { cmd := .field 18 (.one 39 .f64), cond := fun r => !(Ty.rustEq .f64 (r 18) (⟨0x0000000000000000#64⟩ : F64)) },
  { cmd := .field 19 (.axes [(.x, 10), (.y, 20), (.z, 30)]) },
  { cmd := .field 20 (.one 40 .f64) },
  { cmd := .field 21 (.axes [(.x, 210), (.y, 220), (.z, 230)]), cond := fun r => !(Ty.rustEq .point (r 21) (⟨(⟨0x0000000000000000#64⟩ : F64), (⟨0x0000000000000000#64⟩ : F64), (⟨0x3ff0000000000000#64⟩ : F64)⟩ : Point)) }]

/-- Fields of `Ellipse`. -/
def Ent.ellipseSpec : List Decl := [
  /- 18 center -/ ⟨.point, (⟨(⟨0x0000000000000000#64⟩ : F64), (⟨0x0000000000000000#64⟩ : F64), (⟨0x0000000000000000#64⟩ : F64)⟩ : Point)⟩,
  /- 19 major_axis -/ ⟨.point, (⟨(⟨0x3ff0000000000000#64⟩ : F64), (⟨0x0000000000000000#64⟩ : F64), (⟨0x0000000000000000#64⟩ : F64)⟩ : Point)⟩,
  /- 20 normal -/ ⟨.point, (⟨(⟨0x0000000000000000#64⟩ : F64), (⟨0x0000000000000000#64⟩ : F64), (⟨0x3ff0000000000000#64⟩ : F64)⟩ : Point)⟩,
  /- 21 minor_axis_ratio -/ ⟨.f64, (⟨0x3ff0000000000000#64⟩ : F64)⟩,
  /- 22 start_parameter -/ ⟨.f64, (⟨0x0000000000000000#64⟩ : F64)⟩,
  /- 23 end_parameter -/ ⟨.f64, (⟨0x401921fb54442d18#64⟩ : F64)⟩]

/-- Match arms of the reader of `Ellipse`. -/
def Ent.ellipseArms : List (Arm (commonDecls ++ Ent.ellipseSpec)) := [
  ⟨10, .on 18 (.axis .x)⟩,
  ⟨20, .on 18 (.axis .y)⟩,
  ⟨30, .on 18 (.axis .z)⟩,
  ⟨11, .on 19 (.axis .x)⟩,
  ⟨21, .on 19 (.axis .y)⟩,
  ⟨31, .on 19 (.axis .z)⟩,
  ⟨210, .on 20 (.axis .x)⟩,
  ⟨220, .on 20 (.axis .y)⟩,
  ⟨230, .on 20 (.axis .z)⟩,
  ⟨40, .on 21 (.set .f64)⟩,
  ⟨41, .on 22 (.set .f64)⟩,
  ⟨42, .on 23 (.set .f64)⟩] ++ commonArms Ent.ellipseSpec

/-- The specific write statements of `Ellipse`. -/
def Ent.ellipseCmds : List (GCmd (commonDecls ++ Ent.ellipseSpec)) := [
  { cmd := .const (.newStr 100 str!"AcDbEllipse"), min := (some .r13) },
  { cmd := .field 18 (.axes [(.x, 10), (.y, 20), (.z, 30)]) },
  { cmd := .field 19 (.axes [(.x, 11), (.y, 21), (.z, 31)]) },
  { cmd := .field 20 (.axes [(.x, 210), (.y, 220), (.z, 230)]), cond := fun r => !(Ty.rustEq .point (r 20) (⟨(⟨0x0000000000000000#64⟩ : F64), (⟨0x0000000000000000#64⟩ : F64), (⟨0x3ff0000000000000#64⟩ : F64)⟩ : Point)) },
  { cmd := .field 21 (.one 40 .f64) },
  { cmd := .field 22 (.one 41 .f64) },
  { cmd := .field 23 (.one 42 .f64) }]

/-- Fields of `Helix`. -/
def Ent.helixSpec : List Decl := [
  /- 18 major_release_number -/ ⟨.i32, (0#32 : BitVec 32)⟩,
  /- 19 maintainence_release_number -/ ⟨.i32, (0#32 : BitVec 32)⟩,
  /- 20 axis_base_point -/ ⟨.point, (⟨(⟨0x0000000000000000#64⟩ : F64), (⟨0x0000000000000000#64⟩ : F64), (⟨0x0000000000000000#64⟩ : F64)⟩ : Point)⟩,
  /- 21 start_point -/ ⟨.point, (⟨(⟨0x0000000000000000#64⟩ : F64), (⟨0x0000000000000000#64⟩ : F64), (⟨0x0000000000000000#64⟩ : F64)⟩ : Point)⟩,
  /- 22 axis_vector -/ ⟨.point, (⟨(⟨0x0000000000000000#64⟩ : F64), (⟨0x0000000000000000#64⟩ : F64), (⟨0x3ff0000000000000#64⟩ : F64)⟩ : Point)⟩,
  /- 23 radius -/ ⟨.f64, (⟨0x0000000000000000#64⟩ : F64)⟩,
  /- 24 number_of_turns -/ ⟨.f64, (⟨0x0000000000000000#64⟩ : F64)⟩,
  /- 25 turn_height -/ ⟨.f64, (⟨0x0000000000000000#64⟩ : F64)⟩,
  /- 26 is_right_handed -/ ⟨.bool, (false : Bool)⟩,
  /- 27 constraint -/ ⟨.enum E.helixConstraint, (⟨0, by decide⟩ : Fin (List.length E.helixConstraint))⟩]

/-- Match arms of the reader of `Helix`. -/
def Ent.helixArms : List (Arm (commonDecls ++ Ent.helixSpec)) := [
  ⟨90, .on 18 (.set .i32)⟩,
  ⟨91, .on 19 (.set .i32)⟩,
  ⟨10, .on 20 (.axis .x)⟩,
  ⟨20, .on 20 (.axis .y)⟩,
  ⟨30, .on 20 (.axis .z)⟩,
  ⟨11, .on 21 (.axis .x)⟩,
  ⟨21, .on 21 (.axis .y)⟩,
  ⟨31, .on 21 (.axis .z)⟩,
  ⟨12, .on 22 (.axis .x)⟩,
  ⟨22, .on 22 (.axis .y)⟩,
  ⟨32, .on 22 (.axis .z)⟩,
  ⟨40, .on 23 (.set .f64)⟩,
  ⟨41, .on 24 (.set .f64)⟩,
  ⟨42, .on 25 (.set .f64)⟩,
  ⟨290, .on 26 (.set .bool)⟩,
  ⟨280, .on 27 (.set (.enumI16 E.helixConstraint ⟨0, by decide⟩))⟩] ++ commonArms Ent.helixSpec

/-- The specific write statements of `Helix`. -/
def Ent.helixCmds : List (GCmd (commonDecls ++ Ent.helixSpec)) := [
  { cmd := .const (.newStr 100 str!"AcDbHelix"), min := (some .r13) },
  { cmd := .field 18 (.one 90 .i32) },
  { cmd := .field 19 (.one 91 .i32) },
  { cmd := .field 20 (.axes [(.x, 10), (.y, 20), (.z, 30)]) },
  { cmd := .field 21 (.axes [(.x, 11), (.y, 21), (.z, 31)]) },
  { cmd := .field 22 (.axes [(.x, 12), (.y, 22), (.z, 32)]) },
  { cmd := .field 23 (.one 40 .f64) },
  { cmd := .field 24 (.one 41 .f64) },
  { cmd := .field 25 (.one 42 .f64) },
  { cmd := .field 26 (.one 290 .bool) },
  { cmd := .field 27 (.one 280 (.enumI16 E.helixConstraint)) }]

/-- Fields of `Image`. -/
def Ent.imageSpec : List Decl := [
  /- 18 class_version -/ ⟨.i32, (0#32 : BitVec 32)⟩,
  /- 19 location -/ ⟨.point, (⟨(⟨0x0000000000000000#64⟩ : F64), (⟨0x0000000000000000#64⟩ : F64), (⟨0x0000000000000000#64⟩ : F64)⟩ : Point)⟩,
  /- 20 u_vector -/ ⟨.point, (⟨(⟨0x3ff0000000000000#64⟩ : F64), (⟨0x0000000000000000#64⟩ : F64), (⟨0x0000000000000000#64⟩ : F64)⟩ : Point)⟩,
  /- 21 v_vector -/ ⟨.point, (⟨(⟨0x0000000000000000#64⟩ : F64), (⟨0x3ff0000000000000#64⟩ : F64), (⟨0x0000000000000000#64⟩ : F64)⟩ : Point)⟩,
  /- 22 image_size -/ ⟨.point, (⟨(⟨0x0000000000000000#64⟩ : F64), (⟨0x0000000000000000#64⟩ : F64), (⟨0x0000000000000000#64⟩ : F64)⟩ : Point)⟩,
  /- 23 image_def_reference -/ ⟨.str, ([] : Str)⟩,
  /- 24 display_options_flags -/ ⟨.i32, (0#32 : BitVec 32)⟩,
  /- 25 use_clipping -/ ⟨.bool, (true : Bool)⟩,
  /- 26 brightness -/ ⟨.i16, (50#16 : BitVec 16)⟩,
  /- 27 contrast -/ ⟨.i16, (50#16 : BitVec 16)⟩,
  /- 28 fade -/ ⟨.i16, (0#16 : BitVec 16)⟩,
  /- 29 image_def_reactor_reference -/ ⟨.str, ([] : Str)⟩,
  /- 30 clipping_type -/ ⟨.enum E.imageClippingBoundaryType, (⟨0, by decide⟩ : Fin (List.length E.imageClippingBoundaryType))⟩,
  /- 31 clipping_vertex_count -/ ⟨.i32, (0#32 : BitVec 32)⟩,
  /- 32 clipping_vertices -/ ⟨.pts false, (⟨[], [], [], []⟩ : PtAcc)⟩,
  /- 33 is_inside_clipping -/ ⟨.bool, (false : Bool)⟩]

/-- Match arms of the reader of `Image`. -/
def Ent.imageArms : List (Arm (commonDecls ++ Ent.imageSpec)) := [
  ⟨90, .on 18 (.set .i32)⟩,
  ⟨10, .on 19 (.axis .x)⟩,
  ⟨20, .on 19 (.axis .y)⟩,
  ⟨30, .on 19 (.axis .z)⟩,
  ⟨11, .on 20 (.axis .x)⟩,
  ⟨21, .on 20 (.axis .y)⟩,
  ⟨31, .on 20 (.axis .z)⟩,
  ⟨12, .on 21 (.axis .x)⟩,
  ⟨22, .on 21 (.axis .y)⟩,
  ⟨32, .on 21 (.axis .z)⟩,
  ⟨13, .on 22 (.axis .x)⟩,
  ⟨23, .on 22 (.axis .y)⟩,
  ⟨340, .on 23 (.set .str)⟩,
  ⟨70, .on 24 (.set .i32OfI16)⟩,
  ⟨280, .on 25 (.set .asBool)⟩,
  ⟨281, .on 26 (.set .i16)⟩,
  ⟨282, .on 27 (.set .i16)⟩,
  ⟨283, .on 28 (.set .i16)⟩,
  ⟨360, .on 29 (.set .str)⟩,
  ⟨71, .on 30 (.set (.enumI16 E.imageClippingBoundaryType ⟨0, by decide⟩))⟩,
  ⟨91, .on 31 (.set .i32)⟩,
  ⟨14, .on 32 (.pushAxis .x)⟩,
  ⟨24, .on 32 (.pushAxis .y)⟩,
  ⟨290, .on 33 (.set .bool)⟩] ++ commonArms Ent.imageSpec

/-- The specific write statements of `Image`. -/
def Ent.imageCmds : List (GCmd (commonDecls ++ Ent.imageSpec)) := [
  { cmd := .const (.newStr 100 str!"AcDbRasterImage") },
  { cmd := .field 18 (.one 90 .i32) },
  { cmd := .field 19 (.axes [(.x, 10), (.y, 20), (.z, 30)]) },
  { cmd := .field 20 (.axes [(.x, 11), (.y, 21), (.z, 31)]) },
  { cmd := .field 21 (.axes [(.x, 12), (.y, 22), (.z, 32)]) },
  { cmd := .field 22 (.axes [(.x, 13), (.y, 23)]) },
  { cmd := .field 23 (.one 340 .str) },
  { cmd := .field 24 (.one 70 .i32AsI16) },
  { cmd := .field 25 (.one 280 .asI16) },
  { cmd := .field 26 (.one 281 .i16) },
  { cmd := .field 27 (.one 282 .i16) },
  { cmd := .field 28 (.one 283 .i16) },
  { cmd := .field 29 (.one 360 .str) },
  { cmd := .field 30 (.one 71 (.enumI16 E.imageClippingBoundaryType)) },
  { cmd := .computed (t := .i32) 91 .i32 (fun r => BitVec.ofNat 32 ((fun a : PtAcc => a.pts.length) (r 32))) },
  { cmd := .field 32 (.points fun | .x => 14 | .y => 24 | .z => 24) },
  { cmd := .field 33 (.one 290 .bool), min := (some .r2010) }]

/-- Fields of `Insert`. -/
def Ent.insertSpec : List Decl := [
  /- 18 __has_attributes -/ ⟨.bool, (false : Bool)⟩,
  /- 19 name -/ ⟨.str, ([] : Str)⟩,
  /- 20 location -/ ⟨.point, (⟨(⟨0x0000000000000000#64⟩ : F64), (⟨0x0000000000000000#64⟩ : F64), (⟨0x0000000000000000#64⟩ : F64)⟩ : Point)⟩,
  /- 21 x_scale_factor -/ ⟨.f64, (⟨0x3ff0000000000000#64⟩ : F64)⟩,
  /- 22 y_scale_factor -/ ⟨.f64, (⟨0x3ff0000000000000#64⟩ : F64)⟩,
  /- 23 z_scale_factor -/ ⟨.f64, (⟨0x3ff0000000000000#64⟩ : F64)⟩,
  /- 24 rotation -/ ⟨.f64, (⟨0x0000000000000000#64⟩ : F64)⟩,
  /- 25 column_count -/ ⟨.i16, (1#16 : BitVec 16)⟩,
  /- 26 row_count -/ ⟨.i16, (1#16 : BitVec 16)⟩,
  /- 27 column_spacing -/ ⟨.f64, (⟨0x0000000000000000#64⟩ : F64)⟩,
  /- 28 row_spacing -/ ⟨.f64, (⟨0x0000000000000000#64⟩ : F64)⟩,
  /- 29 extrusion_direction -/ ⟨.point, (⟨(⟨0x0000000000000000#64⟩ : F64), (⟨0x0000000000000000#64⟩ : F64), (⟨0x3ff0000000000000#64⟩ : F64)⟩ : Point)⟩]

/-- Match arms of the reader of `Insert`. -/
def Ent.insertArms : List (Arm (commonDecls ++ Ent.insertSpec)) := [
  ⟨66, .on 18 (.set .asBool)⟩,
  ⟨2, .on 19 (.set .str)⟩,
  ⟨10, .on 20 (.axis .x)⟩,
  ⟨20, .on 20 (.axis .y)⟩,
  ⟨30, .on 20 (.axis .z)⟩,
  ⟨41, .on 21 (.set .f64)⟩,
  ⟨42, .on 22 (.set .f64)⟩,
  ⟨43, .on 23 (.set .f64)⟩,
  ⟨50, .on 24 (.set .f64)⟩,
  ⟨70, .on 25 (.set .i16)⟩,
  ⟨71, .on 26 (.set .i16)⟩,
  ⟨44, .on 27 (.set .f64)⟩,
  ⟨45, .on 28 (.set .f64)⟩,
  ⟨210, .on 29 (.axis .x)⟩,
  ⟨220, .on 29 (.axis .y)⟩,
  ⟨230, .on 29 (.axis .z)⟩] ++ commonArms Ent.insertSpec

/-- The specific write statements of `Insert`. -/
def Ent.insertCmds (n : Nat) : List (GCmd (commonDecls ++ Ent.insertSpec)) := [
  { cmd := .const (.newStr 100 str!"AcDbBlockReference"), min := (some .r13) },
  { cmd := .const (.newI16 66 1#16), cond := fun _ => decide (n = 1) },
  { cmd := .field 19 (.one 2 .str) },
  { cmd := .field 20 (.axes [(.x, 10), (.y, 20), (.z, 30)]) },
  { cmd := .field 21 (.one 41 .f64), cond := fun r => !(Ty.rustEq .f64 (r 21) (⟨0x3ff0000000000000#64⟩ : F64)) },
  { cmd := .field 22 (.one 42 .f64), cond := fun r => !(Ty.rustEq .f64 (r 22) (⟨0x3ff0000000000000#64⟩ : F64)) },
  { cmd := .field 23 (.one 43 .f64), cond := fun r => !(Ty.rustEq .f64 (r 23) (⟨0x3ff0000000000000#64⟩ : F64)) },
  { cmd := .field 24 (.one 50 .f64), cond := fun r => !(Ty.rustEq .f64 (r 24) (⟨0x0000000000000000#64⟩ : F64)) },
  { cmd := .field 25 (.one 70 .i16), cond := fun r => !(Ty.rustEq .i16 (r 25) (1#16 : BitVec 16)) },
  { cmd := .field 26 (.one 71 .i16), cond := fun r => !(Ty.rustEq .i16 (r 26) (1#16 : BitVec 16)) },
  { cmd := .field 27 (.one 44 .f64), cond := fun r => !(Ty.rustEq .f64 (r 27) (⟨0x0000000000000000#64⟩ : F64)) },
  { cmd := .field 28 (.one 45 .f64), cond := fun r => !(Ty.rustEq .f64 (r 28) (⟨0x0000000000000000#64⟩ : F64)) },
  { cmd := .field 29 (.axes [(.x, 210), (.y, 220), (.z, 230)]), min := (some .r12) }]

/-- Fields of `Leader`. -/
def Ent.leaderSpec : List Decl := [
  /- 18 dimension_style_name -/ ⟨.str, ([] : Str)⟩,
  /- 19 use_arrowheads -/ ⟨.bool, (true : Bool)⟩,
  /- 20 path_type -/ ⟨.enum E.leaderPathType, (⟨0, by decide⟩ : Fin (List.length E.leaderPathType))⟩,
  /- 21 annotation_type -/ ⟨.enum E.leaderCreationAnnotationType, (⟨3, by decide⟩ : Fin (List.length E.leaderCreationAnnotationType))⟩,
  /- 22 hookline_direction -/ ⟨.enum E.leaderHooklineDirection, (⟨0, by decide⟩ : Fin (List.length E.leaderHooklineDirection))⟩,
  /- 23 use_hookline -/ ⟨.bool, (true : Bool)⟩,
  /- 24 text_annotation_height -/ ⟨.f64, (⟨0x3ff0000000000000#64⟩ : F64)⟩,
  /- 25 text_annotation_width -/ ⟨.f64, (⟨0x3ff0000000000000#64⟩ : F64)⟩,
  /- 26 vertex_count -/ ⟨.i32, (0#32 : BitVec 32)⟩,
  /- 27 vertices -/ ⟨.pts true, (⟨[], [], [], []⟩ : PtAcc)⟩,
  /- 28 override_color -/ ⟨.i16, (0#16 : I16)⟩,
  /- 29 associated_annotation_reference -/ ⟨.str, ([] : Str)⟩,
  /- 30 normal -/ ⟨.point, (⟨(⟨0x0000000000000000#64⟩ : F64), (⟨0x0000000000000000#64⟩ : F64), (⟨0x3ff0000000000000#64⟩ : F64)⟩ : Point)⟩,
  /- 31 right -/ ⟨.point, (⟨(⟨0x3ff0000000000000#64⟩ : F64), (⟨0x0000000000000000#64⟩ : F64), (⟨0x0000000000000000#64⟩ : F64)⟩ : Point)⟩,
  /- 32 block_offset -/ ⟨.point, (⟨(⟨0x0000000000000000#64⟩ : F64), (⟨0x0000000000000000#64⟩ : F64), (⟨0x0000000000000000#64⟩ : F64)⟩ : Point)⟩,
  /- 33 annotation_offset -/ ⟨.point, (⟨(⟨0x3ff0000000000000#64⟩ : F64), (⟨0x0000000000000000#64⟩ : F64), (⟨0x0000000000000000#64⟩ : F64)⟩ : Point)⟩]

/-- Match arms of the reader of `Leader`. -/
def Ent.leaderArms : List (Arm (commonDecls ++ Ent.leaderSpec)) := [
  ⟨3, .on 18 (.set .str)⟩,
  ⟨71, .on 19 (.set .asBool)⟩,
  ⟨72, .on 20 (.set (.enumI16 E.leaderPathType ⟨0, by decide⟩))⟩,
  ⟨73, .on 21 (.set (.enumI16 E.leaderCreationAnnotationType ⟨3, by decide⟩))⟩,
  ⟨74, .on 22 (.set (.enumI16 E.leaderHooklineDirection ⟨0, by decide⟩))⟩,
  ⟨75, .on 23 (.set .asBool)⟩,
  ⟨40, .on 24 (.set .f64)⟩,
  ⟨41, .on 25 (.set .f64)⟩,
  ⟨76, .on 26 (.set .i32OfI16)⟩,
  ⟨10, .on 27 (.pushAxis .x)⟩,
  ⟨20, .on 27 (.pushAxis .y)⟩,
  ⟨30, .on 27 (.pushAxis .z)⟩,
  ⟨77, .on 28 (.set .i16)⟩,
  ⟨340, .on 29 (.set .str)⟩,
  ⟨210, .on 30 (.axis .x)⟩,
  ⟨220, .on 30 (.axis .y)⟩,
  ⟨230, .on 30 (.axis .z)⟩,
  ⟨211, .on 31 (.axis .x)⟩,
  ⟨221, .on 31 (.axis .y)⟩,
  ⟨231, .on 31 (.axis .z)⟩,
  ⟨212, .on 32 (.axis .x)⟩,
  ⟨222, .on 32 (.axis .y)⟩,
  ⟨232, .on 32 (.axis .z)⟩,
  ⟨213, .on 33 (.axis .x)⟩,
  ⟨223, .on 33 (.axis .y)⟩,
  ⟨233, .on 33 (.axis .z)⟩] ++ commonArms Ent.leaderSpec

/-- The specific write statements of `Leader`. -/
def Ent.leaderCmds : List (GCmd (commonDecls ++ Ent.leaderSpec)) := [
  { cmd := .const (.newStr 100 str!"AcDbLeader") },
  { cmd := .field 18 (.one 3 .str) },
  { cmd := .field 19 (.one 71 .asI16) },
  { cmd := .field 20 (.one 72 (.enumI16 E.leaderPathType)) },
  { cmd := .field 21 (.one 73 (.enumI16 E.leaderCreationAnnotationType)) },
  { cmd := .field 22 (.one 74 (.enumI16 E.leaderHooklineDirection)) },
  { cmd := .field 23 (.one 75 .asI16) },
  { cmd := .field 24 (.one 40 .f64) },
  { cmd := .field 25 (.one 41 .f64) },
  { cmd := .computed (t := .i32) 76 .i32AsI16 (fun r => BitVec.ofNat 32 ((fun a : PtAcc => a.pts.length) (r 27))) },
  { cmd := .field 27 (.points fun | .x => 10 | .y => 20 | .z => 30) },
  { cmd := .field 28 (.one 77 .i16), cond := fun r => !(Ty.rustEq .i16 (r 28) (0#16 : I16)) },
  { cmd := .field 29 (.one 340 .str) },
  { cmd := .field 30 (.axes [(.x, 210), (.y, 220), (.z, 230)]) },
  { cmd := .field 31 (.axes [(.x, 211), (.y, 221), (.z, 231)]) },
  { cmd := .field 32 (.axes [(.x, 212), (.y, 222), (.z, 232)]) },
  { cmd := .field 33 (.axes [(.x, 213), (.y, 223), (.z, 233)]), min := (some .r14) }]

/-- Fields of `Light`. -/
def Ent.lightSpec : List Decl := [
  /- 18 version_number -/ ⟨.i32, (0#32 : BitVec 32)⟩,
  /- 19 name -/ ⟨.str, ([] : Str)⟩,
  /- 20 light_type -/ ⟨.enum E.lightType, (⟨0, by decide⟩ : Fin (List.length E.lightType))⟩,
  /- 21 is_active -/ ⟨.bool, (true : Bool)⟩,
  /- 22 plot_glyph -/ ⟨.bool, (true : Bool)⟩,
  /- 23 intensity -/ ⟨.f64, (⟨0x3ff0000000000000#64⟩ : F64)⟩,
  /- 24 position -/ ⟨.point, (⟨(⟨0x0000000000000000#64⟩ : F64), (⟨0x0000000000000000#64⟩ : F64), (⟨0x0000000000000000#64⟩ : F64)⟩ : Point)⟩,
  /- 25 target_location -/ ⟨.point, (⟨(⟨0x0000000000000000#64⟩ : F64), (⟨0x0000000000000000#64⟩ : F64), (⟨0x0000000000000000#64⟩ : F64)⟩ : Point)⟩,
  /- 26 attentuation_type -/ ⟨.enum E.lightAttenuationType, (⟨0, by decide⟩ : Fin (List.length E.lightAttenuationType))⟩,
  /- 27 use_attenuation_limits -/ ⟨.bool, (true : Bool)⟩,
  /- 28 attenuation_start_limit -/ ⟨.f64, (⟨0x0000000000000000#64⟩ : F64)⟩,
  /- 29 attenuation_end_limit -/ ⟨.f64, (⟨0x3ff0000000000000#64⟩ : F64)⟩,
  /- 30 hotspot_angle -/ ⟨.f64, (⟨0x0000000000000000#64⟩ : F64)⟩,
  /- 31 falloff_angle -/ ⟨.f64, (⟨0x0000000000000000#64⟩ : F64)⟩,
  /- 32 cast_shadows -/ ⟨.bool, (true : Bool)⟩,
  /- 33 shadow_type -/ ⟨.enum E.shadowType, (⟨0, by decide⟩ : Fin (List.length E.shadowType))⟩,
  /- 34 shadow_map_size -/ ⟨.i32, (0#32 : BitVec 32)⟩,
  /- 35 shadow_map_softness -/ ⟨.i16, (0#16 : BitVec 16)⟩]

/-- Match arms of the reader of `Light`. -/
def Ent.lightArms : List (Arm (commonDecls ++ Ent.lightSpec)) := [
  ⟨90, .on 18 (.set .i32)⟩,
  ⟨1, .on 19 (.set .str)⟩,
  ⟨70, .on 20 (.set (.enumI16 E.lightType ⟨0, by decide⟩))⟩,
  ⟨290, .on 21 (.set .bool)⟩,
  ⟨291, .on 22 (.set .bool)⟩,
  ⟨40, .on 23 (.set .f64)⟩,
  ⟨10, .on 24 (.axis .x)⟩,
  ⟨20, .on 24 (.axis .y)⟩,
  ⟨30, .on 24 (.axis .z)⟩,
  ⟨11, .on 25 (.axis .x)⟩,
  ⟨21, .on 25 (.axis .y)⟩,
  ⟨31, .on 25 (.axis .z)⟩,
  ⟨72, .on 26 (.set (.enumI16 E.lightAttenuationType ⟨0, by decide⟩))⟩,
  ⟨292, .on 27 (.set .bool)⟩,
  ⟨41, .on 28 (.set .f64)⟩,
  ⟨42, .on 29 (.set .f64)⟩,
  ⟨50, .on 30 (.set .f64)⟩,
  ⟨51, .on 31 (.set .f64)⟩,
  ⟨293, .on 32 (.set .bool)⟩,
  ⟨73, .on 33 (.set (.enumI16 E.shadowType ⟨0, by decide⟩))⟩,
  ⟨91, .on 34 (.set .i32)⟩,
  ⟨280, .on 35 (.set .i16)⟩] ++ commonArms Ent.lightSpec

/-- The specific write statements of `Light`. -/
def Ent.lightCmds : List (GCmd (commonDecls ++ Ent.lightSpec)) := [
  { cmd := .const (.newStr 100 str!"AcDbLight"), min := (some .r13) },
  { cmd := .field 18 (.one 90 .i32) },
  { cmd := .field 19 (.one 1 .str) },
  { cmd := .field 20 (.one 70 (.enumI16 E.lightType)) },
  { cmd := .field 21 (.one 290 .bool) },
  { cmd := .field 22 (.one 291 .bool) },
  { cmd := .field 23 (.one 40 .f64) },
  { cmd := .field 24 (.axes [(.x, 10), (.y, 20), (.z, 30)]) },
  { cmd := .field 25 (.axes [(.x, 11), (.y, 21), (.z, 31)]) },
  { cmd := .field 26 (.one 72 (.enumI16 E.lightAttenuationType)) },
  { cmd := .field 27 (.one 292 .bool) },
  { cmd := .field 28 (.one 41 .f64) },
  { cmd := .field 29 (.one 42 .f64) },
  { cmd := .field 30 (.one 50 .f64) },
  { cmd := .field 31 (.one 51 .f64) },
  { cmd := .field 32 (.one 293 .bool) },
  { cmd := .field 33 (.one 73 (.enumI16 E.shadowType)) },
  { cmd := .field 34 (.one 91 .i32) },
  { cmd := .field 35 (.one 280 .i16) }]

/-- Fields of `Line`. -/
def Ent.lineSpec : List Decl := [
  /- 18 thickness -/ ⟨.f64, (⟨0x0000000000000000#64⟩ : F64)⟩,
  /- 19 p1 -/ ⟨.point, (⟨(⟨0x0000000000000000#64⟩ : F64), (⟨0x0000000000000000#64⟩ : F64), (⟨0x0000000000000000#64⟩ : F64)⟩ : Point)⟩,
  /- 20 p2 -/ ⟨.point, (⟨(⟨0x0000000000000000#64⟩ : F64), (⟨0x0000000000000000#64⟩ : F64), (⟨0x0000000000000000#64⟩ : F64)⟩ : Point)⟩,
  /- 21 extrusion_direction -/ ⟨.point, (⟨(⟨0x0000000000000000#64⟩ : F64), (⟨0x0000000000000000#64⟩ : F64), (⟨0x3ff0000000000000#64⟩ : F64)⟩ : Point)⟩]

/-- Match arms of the reader of `Line`. -/
def Ent.lineArms : List (Arm (commonDecls ++ Ent.lineSpec)) := [
  ⟨39, .on 18 (.set .f64)⟩,
  ⟨10, .on 19 (.axis .x)⟩,
  ⟨20, .on 19 (.axis .y)⟩,
  ⟨30, .on 19 (.axis .z)⟩,
  ⟨11, .on 20 (.axis .x)⟩,
  ⟨21, .on 20 (.axis .y)⟩,
  ⟨31, .on 20 (.axis .z)⟩,
  ⟨210, .on 21 (.axis .x)⟩,
  ⟨220, .on 21 (.axis .y)⟩,
  ⟨230, .on 21 (.axis .z)⟩] ++ commonArms Ent.lineSpec

/-- The specific write statements of `Line`. -/
def Ent.lineCmds : List (GCmd (commonDecls ++ Ent.lineSpec)) := [
  { cmd := .const (.newStr 100 str!"AcDbLine"), min := (some .r13) },
  { cmd := .field 18 (.one 39 .f64), cond := fun r => !(Ty.rustEq .f64 (r 18) (⟨0x0000000000000000#64⟩ : F64)) },
  { cmd := .field 19 (.axes [(.x, 10), (.y, 20), (.z, 30)]) },
  { cmd := .field 20 (.axes [(.x, 11), (.y, 21), (.z, 31)]) },
  { cmd := .field 21 (.axes [(.x, 210), (.y, 220), (.z, 230)]), cond := fun r => !(Ty.rustEq .point (r 21) (⟨(⟨0x0000000000000000#64⟩ : F64), (⟨0x0000000000000000#64⟩ : F64), (⟨0x3ff0000000000000#64⟩ : F64)⟩ : Point)) }]

/-- Fields of `LwPolyline`. -/
def Ent.lwPolylineSpec : List Decl := [
  /- 18 flags -/ ⟨.i32, (0#32 : BitVec 32)⟩,
  /- 19 constant_width -/ ⟨.f64, (⟨0x0000000000000000#64⟩ : F64)⟩,
  /- 20 thickness -/ ⟨.f64, (⟨0x0000000000000000#64⟩ : F64)⟩,
  /- 21 vertices -/ ⟨.lw, ([] : List LwVertex)⟩,
  /- 22 extrusion_direction -/ ⟨.point, (⟨(⟨0x0000000000000000#64⟩ : F64), (⟨0x0000000000000000#64⟩ : F64), (⟨0x3ff0000000000000#64⟩ : F64)⟩ : Point)⟩]

/-- Match arms of the hand-written reader of `LwPolyline` (src/entity.rs:1104-). -/
def Ent.lwPolylineArms : List (Arm (commonDecls ++ Ent.lwPolylineSpec)) := [
  ⟨10, .on 21 .lwNew⟩,
  ⟨20, .on 21 (.lwSet .y)⟩,
  ⟨40, .on 21 (.lwSet .startingWidth)⟩,
  ⟨41, .on 21 (.lwSet .endingWidth)⟩,
  ⟨42, .on 21 (.lwSet .bulge)⟩,
  ⟨91, .on 21 (.lwSet .id)⟩,
  ⟨39, .on 20 (.set .f64)⟩,
  ⟨43, .on 19 (.set .f64)⟩,
  ⟨70, .on 18 (.set .i32OfI16)⟩,
  ⟨210, .on 22 (.axis .x)⟩,
  ⟨220, .on 22 (.axis .y)⟩,
  ⟨230, .on 22 (.axis .z)⟩] ++ commonArms Ent.lwPolylineSpec

/-- The specific write statements of `LwPolyline`. -/
def Ent.lwPolylineCmds : List (GCmd (commonDecls ++ Ent.lwPolylineSpec)) := [
  { cmd := .const (.newStr 100 str!"AcDbPolyline") },
  { cmd := .computed (t := .i32) 90 .i32 (fun r => BitVec.ofNat 32 ((fun a : List LwVertex => a.length) (r 21))) },
  { cmd := .field 18 (.one 70 .i32AsI16) },
  { cmd := .field 19 (.one 43 .f64), cond := fun r => !(Ty.rustEq .f64 (r 19) (⟨0x0000000000000000#64⟩ : F64)) },
  { cmd := .field 5 (.one 38 .f64), cond := fun r => !(Ty.rustEq .f64 (r 5) (⟨0x0000000000000000#64⟩ : F64)) },
  { cmd := .field 20 (.one 39 .f64), cond := fun r => !(Ty.rustEq .f64 (r 20) (⟨0x0000000000000000#64⟩ : F64)) },
  { cmd := .field 21 (.lw true), min := (some .r2013) },
  { cmd := .field 21 (.lw false), max := (some .r2010) },
  { cmd := .field 22 (.axes [(.x, 210), (.y, 220), (.z, 230)]), cond := fun r => !(Ty.rustEq .point (r 22) (⟨(⟨0x0000000000000000#64⟩ : F64), (⟨0x0000000000000000#64⟩ : F64), (⟨0x3ff0000000000000#64⟩ : F64)⟩ : Point)) }]

/-- Fields of `MLine`. -/
def Ent.mLineSpec : List Decl := [
  /- 18 style_name -/ ⟨.str, ([] : Str)⟩,
  /- 19 __style_handle -/ ⟨.handle, (0#64 : Handle)⟩,
  /- 20 scale_factor -/ ⟨.f64, (⟨0x3ff0000000000000#64⟩ : F64)⟩,
  /- 21 justification -/ ⟨.enum E.justification, (⟨0, by decide⟩ : Fin (List.length E.justification))⟩,
  /- 22 flags -/ ⟨.i32, (0#32 : BitVec 32)⟩,
  /- 23 __vertex_count -/ ⟨.i32, (0#32 : BitVec 32)⟩,
  /- 24 style_element_count -/ ⟨.i32, (0#32 : BitVec 32)⟩,
  /- 25 start_point -/ ⟨.point, (⟨(⟨0x0000000000000000#64⟩ : F64), (⟨0x0000000000000000#64⟩ : F64), (⟨0x0000000000000000#64⟩ : F64)⟩ : Point)⟩,
  /- 26 normal -/ ⟨.point, (⟨(⟨0x0000000000000000#64⟩ : F64), (⟨0x0000000000000000#64⟩ : F64), (⟨0x3ff0000000000000#64⟩ : F64)⟩ : Point)⟩,
  /- 27 vertices -/ ⟨.pts true, (⟨[], [], [], []⟩ : PtAcc)⟩,
  /- 28 segment_directions -/ ⟨.pts true, (⟨[], [], [], []⟩ : PtAcc)⟩,
  /- 29 miter_directions -/ ⟨.pts true, (⟨[], [], [], []⟩ : PtAcc)⟩,
  /- 30 __parameter_count -/ ⟨.i32, (0#32 : BitVec 32)⟩,
  /- 31 parameters -/ ⟨.list .f64, ([] : List (F64))⟩,
  /- 32 __area_fill_parameter_count -/ ⟨.i32, (0#32 : BitVec 32)⟩,
  /- 33 area_fill_parameters -/ ⟨.list .f64, ([] : List (F64))⟩]

/-- Match arms of the reader of `MLine`. -/
def Ent.mLineArms : List (Arm (commonDecls ++ Ent.mLineSpec)) := [
  ⟨2, .on 18 (.set .str)⟩,
  ⟨340, .on 19 (.set .handle)⟩,
  ⟨40, .on 20 (.set .f64)⟩,
  ⟨70, .on 21 (.set (.enumI16 E.justification ⟨0, by decide⟩))⟩,
  ⟨71, .on 22 (.set .i32OfI16)⟩,
  ⟨72, .on 23 (.set .i32OfI16)⟩,
  ⟨73, .on 24 (.set .i32OfI16)⟩,
  ⟨10, .on 25 (.axis .x)⟩,
  ⟨20, .on 25 (.axis .y)⟩,
  ⟨30, .on 25 (.axis .z)⟩,
  ⟨210, .on 26 (.axis .x)⟩,
  ⟨220, .on 26 (.axis .y)⟩,
  ⟨230, .on 26 (.axis .z)⟩,
  ⟨11, .on 27 (.pushAxis .x)⟩,
  ⟨21, .on 27 (.pushAxis .y)⟩,
  ⟨31, .on 27 (.pushAxis .z)⟩,
  ⟨12, .on 28 (.pushAxis .x)⟩,
  ⟨22, .on 28 (.pushAxis .y)⟩,
  ⟨32, .on 28 (.pushAxis .z)⟩,
  ⟨13, .on 29 (.pushAxis .x)⟩,
  ⟨23, .on 29 (.pushAxis .y)⟩,
  ⟨33, .on 29 (.pushAxis .z)⟩,
  ⟨74, .on 30 (.set .i32OfI16)⟩,
  ⟨41, .on 31 (.push .f64)⟩,
  ⟨75, .on 32 (.set .i32OfI16)⟩,
  ⟨42, .on 33 (.push .f64)⟩] ++ commonArms Ent.mLineSpec

/-- The specific write statements of `MLine`. -/
def Ent.mLineCmds : List (GCmd (commonDecls ++ Ent.mLineSpec)) := [
  { cmd := .const (.newStr 100 str!"AcDbMline") },
  { cmd := .field 18 (.one 2 .str) },
  { cmd := .field 19 (.one 340 .handle) },
  { cmd := .field 20 (.one 40 .f64) },
  { cmd := .field 21 (.one 70 (.enumI16 E.justification)) },
  { cmd := .field 22 (.one 71 .i32AsI16) },
  { cmd := .computed (t := .i32) 72 .i32AsI16 (fun r => BitVec.ofNat 32 ((fun a : PtAcc => a.pts.length) (r 27))) },
  { cmd := .field 24 (.one 73 .i32AsI16) },
  { cmd := .field 25 (.axes [(.x, 10), (.y, 20), (.z, 30)]) },
  { cmd := .field 26 (.axes [(.x, 210), (.y, 220), (.z, 230)]), cond := fun r => !(Ty.rustEq .point (r 26) (⟨(⟨0x0000000000000000#64⟩ : F64), (⟨0x0000000000000000#64⟩ : F64), (⟨0x3ff0000000000000#64⟩ : F64)⟩ : Point)) },
  { cmd := .field 27 (.points fun | .x => 10 | .y => 20 | .z => 30) },
  { cmd := .field 28 (.points fun | .x => 11 | .y => 21 | .z => 31) },
  { cmd := .field 29 (.points fun | .x => 12 | .y => 22 | .z => 32) },
  { cmd := .computed (t := .i32) 74 .i32AsI16 (fun r => BitVec.ofNat 32 ((fun a : List (F64) => a.length) (r 31))) },
  { cmd := .field 31 (.many 41 .f64) },
  { cmd := .computed (t := .i32) 75 .i32AsI16 (fun r => BitVec.ofNat 32 ((fun a : List (F64) => a.length) (r 33))) },
  { cmd := .field 33 (.many 42 .f64) }]

/-- Fields of `MText`. -/
def Ent.mTextSpec : List Decl := [
  /- 18 insertion_point -/ ⟨.point, (⟨(⟨0x0000000000000000#64⟩ : F64), (⟨0x0000000000000000#64⟩ : F64), (⟨0x0000000000000000#64⟩ : F64)⟩ : Point)⟩,
  /- 19 initial_text_height -/ ⟨.f64, (⟨0x3ff0000000000000#64⟩ : F64)⟩,
  /- 20 reference_rectangle_width -/ ⟨.f64, (⟨0x3ff0000000000000#64⟩ : F64)⟩,
  /- 21 attachment_point -/ ⟨.enum E.attachmentPoint, (⟨0, by decide⟩ : Fin (List.length E.attachmentPoint))⟩,
  /- 22 drawing_direction -/ ⟨.enum E.drawingDirection, (⟨0, by decide⟩ : Fin (List.length E.drawingDirection))⟩,
  /- 23 extended_text -/ ⟨.list .str, ([] : List (Str))⟩,
  /- 24 text -/ ⟨.str, ([] : Str)⟩,
  /- 25 text_style_name -/ ⟨.str, (str!"STANDARD" : Str)⟩,
  /- 26 extrusion_direction -/ ⟨.point, (⟨(⟨0x0000000000000000#64⟩ : F64), (⟨0x0000000000000000#64⟩ : F64), (⟨0x3ff0000000000000#64⟩ : F64)⟩ : Point)⟩,
  /- 27 x_axis_direction -/ ⟨.point, (⟨(⟨0x3ff0000000000000#64⟩ : F64), (⟨0x0000000000000000#64⟩ : F64), (⟨0x0000000000000000#64⟩ : F64)⟩ : Point)⟩,
  /- 28 horizontal_width -/ ⟨.f64, (⟨0x3ff0000000000000#64⟩ : F64)⟩,
  /- 29 vertical_height -/ ⟨.f64, (⟨0x3ff0000000000000#64⟩ : F64)⟩,
  /- 30 rotation_angle -/ ⟨.f64, (⟨0x0000000000000000#64⟩ : F64)⟩,
  /- 31 line_spacing_style -/ ⟨.enum E.mTextLineSpacingStyle, (⟨0, by decide⟩ : Fin (List.length E.mTextLineSpacingStyle))⟩,
  /- 32 line_spacing_factor -/ ⟨.f64, (⟨0x3ff0000000000000#64⟩ : F64)⟩,
  /- 33 background_fill_setting -/ ⟨.enum E.backgroundFillSetting, (⟨0, by decide⟩ : Fin (List.length E.backgroundFillSetting))⟩,
  /- 34 background_color_rgb -/ ⟨.i32, (0#32 : BitVec 32)⟩,
  /- 35 background_color_name -/ ⟨.str, ([] : Str)⟩,
  /- 36 fill_box_scale -/ ⟨.f64, (⟨0x3ff0000000000000#64⟩ : F64)⟩,
  /- 37 background_fill_color -/ ⟨.i16, (256#16 : I16)⟩,
  /- 38 background_fill_color_transparency -/ ⟨.i32, (0#32 : BitVec 32)⟩,
  /- 39 column_type -/ ⟨.i16, (0#16 : BitVec 16)⟩,
  /- 40 column_count -/ ⟨.i32, (0#32 : BitVec 32)⟩,
  /- 41 is_column_flow_reversed -/ ⟨.bool, (false : Bool)⟩,
  /- 42 is_column_auto_height -/ ⟨.bool, (true : Bool)⟩,
  /- 43 column_width -/ ⟨.f64, (⟨0x0000000000000000#64⟩ : F64)⟩,
  /- 44 column_gutter -/ ⟨.f64, (⟨0x0000000000000000#64⟩ : F64)⟩,
  /- 45 column_heights -/ ⟨.list .f64, ([] : List (F64))⟩]

/-- Match arms of the hand-written reader of `MText` (src/entity.rs:1156-). -/
def Ent.mTextArms (column counted : Bool) : List (Arm (commonDecls ++ Ent.mTextSpec)) := [
  ⟨10, .on 18 (.axis .x)⟩,
  ⟨20, .on 18 (.axis .y)⟩,
  ⟨30, .on 18 (.axis .z)⟩,
  ⟨40, .on 19 (.set .f64)⟩,
  ⟨41, .on 20 (.set .f64)⟩,
  ⟨71, .on 21 (.set (.enumI16 E.attachmentPoint ⟨0, by decide⟩))⟩,
  ⟨72, .on 22 (.set (.enumI16 E.drawingDirection ⟨0, by decide⟩))⟩,
  ⟨3, .on 23 (.push .str)⟩,
  ⟨1, .on 24 (.set .str)⟩,
  ⟨7, .on 25 (.set .str)⟩,
  ⟨210, .on 26 (.axis .x)⟩,
  ⟨220, .on 26 (.axis .y)⟩,
  ⟨230, .on 26 (.axis .z)⟩,
  ⟨11, .on 27 (.axis .x)⟩,
  ⟨21, .on 27 (.axis .y)⟩,
  ⟨31, .on 27 (.axis .z)⟩,
  ⟨42, .on 28 (.set .f64)⟩,
  ⟨43, .on 29 (.set .f64)⟩,
  ⟨50, bif column then bif counted then .on 45 (.push .f64) else .on 40 (.set .i32OfF64) else .on 30 (.set .f64)⟩,
  ⟨73, .on 31 (.set (.enumI16 E.mTextLineSpacingStyle ⟨0, by decide⟩))⟩,
  ⟨44, .on 32 (.set .f64)⟩,
  ⟨90, .on 33 (.set (.enumI32 E.backgroundFillSetting ⟨0, by decide⟩))⟩,
  ⟨420, .on 34 (.set .i32)⟩,
  ⟨430, .on 35 (.set .str)⟩,
  ⟨45, .on 36 (.set .f64)⟩,
  ⟨63, .on 37 (.set .i16)⟩,
  ⟨441, .on 38 (.set .i32)⟩,
  ⟨75, .on 39 (.set .i16)⟩,
  ⟨76, .on 40 (.set .i32OfI16)⟩,
  ⟨78, .on 41 (.set .asBool)⟩,
  ⟨79, .on 42 (.set .asBool)⟩,
  ⟨48, .on 43 (.set .f64)⟩,
  ⟨49, .on 44 (.set .f64)⟩] ++ commonArms Ent.mTextSpec

/-- The specific write statements of `MText`. -/
def Ent.mTextCmds : List (GCmd (commonDecls ++ Ent.mTextSpec)) := [
  { cmd := .const (.newStr 100 str!"AcDbMText") },
  { cmd := .field 18 (.axes [(.x, 10), (.y, 20), (.z, 30)]) },
  { cmd := .field 19 (.one 40 .f64) },
  { cmd := .field 20 (.one 41 .f64) },
  { cmd := .field 21 (.one 71 (.enumI16 E.attachmentPoint)) },
  { cmd := .field 22 (.one 72 (.enumI16 E.drawingDirection)) },
  { cmd := .field 23 (.many 3 .str) },
  { cmd := .field 24 (.one 1 .str) },
  { cmd := .field 25 (.one 7 .str), cond := fun r => !(Ty.rustEq .str (r 25) (str!"STANDARD" : Str)) },
  { cmd := .field 26 (.axes [(.x, 210), (.y, 220), (.z, 230)]), cond := fun r => !(Ty.rustEq .point (r 26) (⟨(⟨0x0000000000000000#64⟩ : F64), (⟨0x0000000000000000#64⟩ : F64), (⟨0x3ff0000000000000#64⟩ : F64)⟩ : Point)) },
  { cmd := .field 27 (.axes [(.x, 11), (.y, 21), (.z, 31)]) },
  { cmd := .field 28 (.one 42 .f64) },
  { cmd := .field 29 (.one 43 .f64) },
  { cmd := .field 30 (.one 50 .f64) },
  { cmd := .field 31 (.one 73 (.enumI16 E.mTextLineSpacingStyle)) },
  { cmd := .field 32 (.one 44 .f64) },
  { cmd := .field 33 (.one 90 (.enumI32 E.backgroundFillSetting)) },
  { cmd := .field 34 (.one 420 .i32) },
  { cmd := .field 35 (.one 430 .str) },
  { cmd := .field 36 (.one 45 .f64), cond := fun r => !(Ty.rustEq .f64 (r 36) (⟨0x3ff0000000000000#64⟩ : F64)) },
  { cmd := .field 37 (.one 63 .i16) },
  { cmd := .field 38 (.one 441 .i32) },
  { cmd := .field 39 (.one 75 .i16) },
  { cmd := .field 40 (.one 76 .i32AsI16) },
  { cmd := .field 41 (.one 78 .asI16) },
  { cmd := .field 42 (.one 79 .asI16) },
  { cmd := .field 43 (.one 48 .f64) },
  { cmd := .field 44 (.one 49 .f64) },
  { cmd := .computed (t := .f64) 50 .f64 (fun r => F64.ofInt ((fun a : List (F64) => a.length) (r 45) : Nat)) },
  { cmd := .field 45 (.many 50 .f64) }]

/-- Fields of `OleFrame`. -/
def Ent.oleFrameSpec : List Decl := [
  /- 18 version_number -/ ⟨.i32, (0#32 : BitVec 32)⟩,
  /- 19 binary_data_length -/ ⟨.i32, (0#32 : BitVec 32)⟩,
  /- 20 binary_data_strings -/ ⟨.list .bytes, ([] : List (List Byte))⟩]

/-- Match arms of the reader of `OleFrame`. -/
def Ent.oleFrameArms : List (Arm (commonDecls ++ Ent.oleFrameSpec)) := [
  ⟨70, .on 18 (.set .i32OfI16)⟩,
  ⟨90, .on 19 (.set .i32)⟩,
  ⟨310, .on 20 (.push .bytes)⟩] ++ commonArms Ent.oleFrameSpec

/-- The specific write statements of `OleFrame`. -/
def Ent.oleFrameCmds : List (GCmd (commonDecls ++ Ent.oleFrameSpec)) := [
  { cmd := .const (.newStr 100 str!"AcDbOleFrame") },
  { cmd := .field 18 (.one 70 .i32AsI16) },
  { cmd := .field 19 (.one 90 .i32) },
  { cmd := .field 20 (.many 310 .bytes) },
  { cmd := .const (.newStr 1 str!"OLE") }]

/-- Fields of `Ole2Frame`. -/
def Ent.ole2FrameSpec : List Decl := [
  /- 18 version_number -/ ⟨.i32, (0#32 : BitVec 32)⟩,
  /- 19 description -/ ⟨.str, ([] : Str)⟩,
  /- 20 upper_left_corner -/ ⟨.point, (⟨(⟨0x0000000000000000#64⟩ : F64), (⟨0x0000000000000000#64⟩ : F64), (⟨0x0000000000000000#64⟩ : F64)⟩ : Point)⟩,
  /- 21 lower_right_corner -/ ⟨.point, (⟨(⟨0x0000000000000000#64⟩ : F64), (⟨0x0000000000000000#64⟩ : F64), (⟨0x0000000000000000#64⟩ : F64)⟩ : Point)⟩,
  /- 22 object_type -/ ⟨.enum E.oleObjectType, (⟨2, by decide⟩ : Fin (List.length E.oleObjectType))⟩,
  /- 23 tile_mode -/ ⟨.enum E.tileModeDescriptor, (⟨0, by decide⟩ : Fin (List.length E.tileModeDescriptor))⟩,
  /- 24 binary_data_length -/ ⟨.i32, (0#32 : BitVec 32)⟩,
  /- 25 binary_data_strings -/ ⟨.list .bytes, ([] : List (List Byte))⟩]

/-- Match arms of the reader of `Ole2Frame`. -/
def Ent.ole2FrameArms : List (Arm (commonDecls ++ Ent.ole2FrameSpec)) := [
  ⟨70, .on 18 (.set .i32OfI16)⟩,
  ⟨3, .on 19 (.set .str)⟩,
  ⟨10, .on 20 (.axis .x)⟩,
  ⟨20, .on 20 (.axis .y)⟩,
  ⟨30, .on 20 (.axis .z)⟩,
  ⟨11, .on 21 (.axis .x)⟩,
  ⟨21, .on 21 (.axis .y)⟩,
  ⟨31, .on 21 (.axis .z)⟩,
  ⟨71, .on 22 (.set (.enumI16 E.oleObjectType ⟨2, by decide⟩))⟩,
  ⟨72, .on 23 (.set (.enumI16 E.tileModeDescriptor ⟨0, by decide⟩))⟩,
  ⟨90, .on 24 (.set .i32)⟩,
  ⟨310, .on 25 (.push .bytes)⟩] ++ commonArms Ent.ole2FrameSpec

/-- The specific write statements of `Ole2Frame`. -/
def Ent.ole2FrameCmds : List (GCmd (commonDecls ++ Ent.ole2FrameSpec)) := [
  { cmd := .const (.newStr 100 str!"AcDbOle2Frame") },
  { cmd := .field 18 (.one 70 .i32AsI16) },
  { cmd := .field 19 (.one 3 .str) },
  { cmd := .field 20 (.axes [(.x, 10), (.y, 20), (.z, 30)]) },
  { cmd := .field 21 (.axes [(.x, 11), (.y, 21), (.z, 31)]) },
  { cmd := .field 22 (.one 71 (.enumI16 E.oleObjectType)) },
  { cmd := .field 23 (.one 72 (.enumI16 E.tileModeDescriptor)) },
  { cmd := .field 24 (.one 90 .i32) },
  { cmd := .field 25 (.many 310 .bytes) },
  { cmd := .const (.newStr 1 str!"OLE") }]

/-- Fields of `ModelPoint`. -/
def Ent.modelPointSpec : List Decl := [
  /- 18 location -/ ⟨.point, (⟨(⟨0x0000000000000000#64⟩ : F64), (⟨0x0000000000000000#64⟩ : F64), (⟨0x0000000000000000#64⟩ : F64)⟩ : Point)⟩,
  /- 19 thickness -/ ⟨.f64, (⟨0x0000000000000000#64⟩ : F64)⟩,
  /- 20 extrusion_direction -/ ⟨.point, (⟨(⟨0x0000000000000000#64⟩ : F64), (⟨0x0000000000000000#64⟩ : F64), (⟨0x3ff0000000000000#64⟩ : F64)⟩ : Point)⟩,
  /- 21 angle -/ ⟨.f64, (⟨0x0000000000000000#64⟩ : F64)⟩]

/-- Match arms of the reader of `ModelPoint`. -/
def Ent.modelPointArms : List (Arm (commonDecls ++ Ent.modelPointSpec)) := [
  ⟨10, .on 18 (.axis .x)⟩,
  ⟨20, .on 18 (.axis .y)⟩,
  ⟨30, .on 18 (.axis .z)⟩,
  ⟨39, .on 19 (.set .f64)⟩,
  ⟨210, .on 20 (.axis .x)⟩,
  ⟨220, .on 20 (.axis .y)⟩,
  ⟨230, .on 20 (.axis .z)⟩,
  ⟨50, .on 21 (.set .f64)⟩] ++ commonArms Ent.modelPointSpec

/-- The specific write statements of `ModelPoint`. -/
def Ent.modelPointCmds : List (GCmd (commonDecls ++ Ent.modelPointSpec)) := [
  { cmd := .const (.newStr 100 str!"AcDbPoint"), min := (some .r13) },
  { cmd := .field 18 (.axes [(.x, 10), (.y, 20), (.z, 30)]) },
  { cmd := .field 19 (.one 39 .f64), cond := fun r => !(Ty.rustEq .f64 (r 19) (⟨0x0000000000000000#64⟩ : F64)) },
  { cmd := .field 20 (.axes [(.x, 210), (.y, 220), (.z, 230)]), cond := fun r => !(Ty.rustEq .point (r 20) (⟨(⟨0x0000000000000000#64⟩ : F64), (⟨0x0000000000000000#64⟩ : F64), (⟨0x3ff0000000000000#64⟩ : F64)⟩ : Point)) },
  { cmd := .field 21 (.one 50 .f64), cond := fun r => !(Ty.rustEq .f64 (r 21) (⟨0x0000000000000000#64⟩ : F64)) }]

/-- Fields of `Polyline`. -/
def Ent.polylineSpec : List Decl := [
  /- 18 contains_vertices -/ ⟨.bool, (true : Bool)⟩,
  /- 19 location -/ ⟨.point, (⟨(⟨0x0000000000000000#64⟩ : F64), (⟨0x0000000000000000#64⟩ : F64), (⟨0x0000000000000000#64⟩ : F64)⟩ : Point)⟩,
  /- 20 thickness -/ ⟨.f64, (⟨0x0000000000000000#64⟩ : F64)⟩,
  /- 21 flags -/ ⟨.i32, (0#32 : BitVec 32)⟩,
  /- 22 default_starting_width -/ ⟨.f64, (⟨0x0000000000000000#64⟩ : F64)⟩,
  /- 23 default_ending_width -/ ⟨.f64, (⟨0x0000000000000000#64⟩ : F64)⟩,
  /- 24 polygon_mesh_m_vertex_count -/ ⟨.i32, (0#32 : BitVec 32)⟩,
  /- 25 polygon_mesh_n_vertex_count -/ ⟨.i32, (0#32 : BitVec 32)⟩,
  /- 26 smooth_surface_m_density -/ ⟨.i32, (0#32 : BitVec 32)⟩,
  /- 27 smooth_surface_n_density -/ ⟨.i32, (0#32 : BitVec 32)⟩,
  /- 28 surface_type -/ ⟨.enum E.polylineCurvedAndSmoothSurfaceType, (⟨0, by decide⟩ : Fin (List.length E.polylineCurvedAndSmoothSurfaceType))⟩,
  /- 29 normal -/ ⟨.point, (⟨(⟨0x0000000000000000#64⟩ : F64), (⟨0x0000000000000000#64⟩ : F64), (⟨0x3ff0000000000000#64⟩ : F64)⟩ : Point)⟩]

/-- Match arms of the reader of `Polyline`. -/
def Ent.polylineArms : List (Arm (commonDecls ++ Ent.polylineSpec)) := [
  ⟨66, .on 18 (.set .asBool)⟩,
  ⟨10, .on 19 (.axis .x)⟩,
  ⟨20, .on 19 (.axis .y)⟩,
  ⟨30, .on 19 (.axis .z)⟩,
  ⟨39, .on 20 (.set .f64)⟩,
  ⟨70, .on 21 (.set .i32OfI16)⟩,
  ⟨40, .on 22 (.set .f64)⟩,
  ⟨41, .on 23 (.set .f64)⟩,
  ⟨71, .on 24 (.set .i32OfI16)⟩,
  ⟨72, .on 25 (.set .i32OfI16)⟩,
  ⟨73, .on 26 (.set .i32OfI16)⟩,
  ⟨74, .on 27 (.set .i32OfI16)⟩,
  ⟨75, .on 28 (.set (.enumI16 E.polylineCurvedAndSmoothSurfaceType ⟨0, by decide⟩))⟩,
  ⟨210, .on 29 (.axis .x)⟩,
  ⟨220, .on 29 (.axis .y)⟩,
  ⟨230, .on 29 (.axis .z)⟩] ++ commonArms Ent.polylineSpec

/-- The specific write statements of `Polyline`. -/
def Ent.polylineCmds : List (GCmd (commonDecls ++ Ent.polylineSpec)) := [
  { cmd := .computed (t := .str) 100 .str (fun r => bif getFlag (w := 32) (r 21) 8#32 || getFlag (w := 32) (r 21) 16#32 then str!"AcDb3dPolyline" else str!"AcDb2dPolyline"), min := (some .r13) },
  { cmd := .field 18 (.one 66 .asI16), max := (some .r13) },
  { cmd := .field 19 (.axes [(.x, 10), (.y, 20), (.z, 30)]), min := (some .r12) },
  { cmd := .field 20 (.one 39 .f64), cond := fun r => !(Ty.rustEq .f64 (r 20) (⟨0x0000000000000000#64⟩ : F64)) },
  { cmd := .field 21 (.one 70 .i32AsI16), cond := fun r => !(Ty.rustEq .i32 (r 21) (0#32 : BitVec 32)) },
  { cmd := .field 22 (.one 40 .f64), cond := fun r => !(Ty.rustEq .f64 (r 22) (⟨0x0000000000000000#64⟩ : F64)) },
  { cmd := .field 23 (.one 41 .f64), cond := fun r => !(Ty.rustEq .f64 (r 23) (⟨0x0000000000000000#64⟩ : F64)) },
  { cmd := .field 24 (.one 71 .i32AsI16), cond := fun r => !(Ty.rustEq .i32 (r 24) (0#32 : BitVec 32)) },
  { cmd := .field 25 (.one 72 .i32AsI16), cond := fun r => !(Ty.rustEq .i32 (r 25) (0#32 : BitVec 32)) },
  { cmd := .field 26 (.one 73 .i32AsI16), cond := fun r => !(Ty.rustEq .i32 (r 26) (0#32 : BitVec 32)) },
  { cmd := .field 27 (.one 74 .i32AsI16), cond := fun r => !(Ty.rustEq .i32 (r 27) (0#32 : BitVec 32)) },
  { cmd := .field 28 (.one 75 (.enumI16 E.polylineCurvedAndSmoothSurfaceType)), cond := fun r => !(Ty.rustEq (.enum E.polylineCurvedAndSmoothSurfaceType) (r 28) (⟨0, by decide⟩ : Fin (List.length E.polylineCurvedAndSmoothSurfaceType))) },
  { cmd := .field 29 (.axes [(.x, 210), (.y, 220), (.z, 230)]), cond := fun r => !(Ty.rustEq .point (r 29) (⟨(⟨0x0000000000000000#64⟩ : F64), (⟨0x0000000000000000#64⟩ : F64), (⟨0x3ff0000000000000#64⟩ : F64)⟩ : Point)) }]

/-- Fields of `Ray`. -/
def Ent.raySpec : List Decl := [
  /- 18 start_point -/ ⟨.point, (⟨(⟨0x0000000000000000#64⟩ : F64), (⟨0x0000000000000000#64⟩ : F64), (⟨0x0000000000000000#64⟩ : F64)⟩ : Point)⟩,
  /- 19 unit_direction_vector -/ ⟨.point, (⟨(⟨0x3ff0000000000000#64⟩ : F64), (⟨0x0000000000000000#64⟩ : F64), (⟨0x0000000000000000#64⟩ : F64)⟩ : Point)⟩]

/-- Match arms of the reader of `Ray`. -/
def Ent.rayArms : List (Arm (commonDecls ++ Ent.raySpec)) := [
  ⟨10, .on 18 (.axis .x)⟩,
  ⟨20, .on 18 (.axis .y)⟩,
  ⟨30, .on 18 (.axis .z)⟩,
  ⟨11, .on 19 (.axis .x)⟩,
  ⟨21, .on 19 (.axis .y)⟩,
  ⟨31, .on 19 (.axis .z)⟩] ++ commonArms Ent.raySpec

/-- The specific write statements of `Ray`. -/
def Ent.rayCmds : List (GCmd (commonDecls ++ Ent.raySpec)) := [
  { cmd := .const (.newStr 100 str!"AcDbRay"), min := (some .r13) },
  { cmd := .field 18 (.axes [(.x, 10), (.y, 20), (.z, 30)]) },
  { cmd := .field 19 (.axes [(.x, 11), (.y, 21), (.z, 31)]) }]

/-- Fields of `Region`. -/
def Ent.regionSpec : List Decl := [
  /- 18 format_version_number -/ ⟨.i16, (1#16 : BitVec 16)⟩,
  /- 19 custom_data -/ ⟨.list .str, ([] : List (Str))⟩,
  /- 20 custom_data2 -/ ⟨.list .str, ([] : List (Str))⟩]

/-- Match arms of the reader of `Region`. -/
def Ent.regionArms : List (Arm (commonDecls ++ Ent.regionSpec)) := [
  ⟨70, .on 18 (.set .i16)⟩,
  ⟨1, .on 19 (.push .str)⟩,
  ⟨3, .on 20 (.push .str)⟩] ++ commonArms Ent.regionSpec

/-- The specific write statements of `Region`. -/
def Ent.regionCmds : List (GCmd (commonDecls ++ Ent.regionSpec)) := [
  { cmd := .const (.newStr 100 str!"AcDbModelerGeometry"), min := (some .r13) },
  { cmd := .field 18 (.one 70 .i16) },
  { cmd := .field 19 (.many 1 .str) },
  { cmd := .field 20 (.many 3 .str) }]

/-- Fields of `RText`. -/
def Ent.rTextSpec : List Decl := [
  /- 18 insertion_point -/ ⟨.point, (⟨(⟨0x0000000000000000#64⟩ : F64), (⟨0x0000000000000000#64⟩ : F64), (⟨0x0000000000000000#64⟩ : F64)⟩ : Point)⟩,
  /- 19 extrusion_direction -/ ⟨.point, (⟨(⟨0x0000000000000000#64⟩ : F64), (⟨0x0000000000000000#64⟩ : F64), (⟨0x3ff0000000000000#64⟩ : F64)⟩ : Point)⟩,
  /- 20 rotation_angle -/ ⟨.f64, (⟨0x0000000000000000#64⟩ : F64)⟩,
  /- 21 text_height -/ ⟨.f64, (⟨0x0000000000000000#64⟩ : F64)⟩,
  /- 22 text_style -/ ⟨.str, (str!"STANDARD" : Str)⟩,
  /- 23 type_flags -/ ⟨.i32, (0#32 : BitVec 32)⟩,
  /- 24 contents -/ ⟨.str, ([] : Str)⟩]

/-- Match arms of the reader of `RText`. -/
def Ent.rTextArms : List (Arm (commonDecls ++ Ent.rTextSpec)) := [
  ⟨10, .on 18 (.axis .x)⟩,
  ⟨20, .on 18 (.axis .y)⟩,
  ⟨30, .on 18 (.axis .z)⟩,
  ⟨210, .on 19 (.axis .x)⟩,
  ⟨220, .on 19 (.axis .y)⟩,
  ⟨230, .on 19 (.axis .z)⟩,
  ⟨50, .on 20 (.set .f64)⟩,
  ⟨40, .on 21 (.set .f64)⟩,
  ⟨7, .on 22 (.set .str)⟩,
  ⟨70, .on 23 (.set .i32OfI16)⟩,
  ⟨1, .on 24 (.set .str)⟩] ++ commonArms Ent.rTextSpec

/-- The specific write statements of `RText`. -/
def Ent.rTextCmds : List (GCmd (commonDecls ++ Ent.rTextSpec)) := [
  { cmd := .const (.newStr 100 str!"RText"), min := (some .r13) },
  { cmd := .field 18 (.axes [(.x, 10), (.y, 20), (.z, 30)]) },
  { cmd := .field 19 (.axes [(.x, 210), (.y, 220), (.z, 230)]), cond := fun r => !(Ty.rustEq .point (r 19) (⟨(⟨0x0000000000000000#64⟩ : F64), (⟨0x0000000000000000#64⟩ : F64), (⟨0x3ff0000000000000#64⟩ : F64)⟩ : Point)) },
  { cmd := .field 20 (.one 50 .f64) },
  { cmd := .field 21 (.one 40 .f64) },
  { cmd := .field 22 (.one 7 .str) },
  { cmd := .field 23 (.one 70 .i32AsI16) },
  { cmd := .field 24 (.one 1 .str) }]

/-- Fields of `Section`. -/
def Ent.sectionSpec : List Decl := [
  /- 18 state -/ ⟨.i32, (0#32 : BitVec 32)⟩,
  /- 19 flags -/ ⟨.i32, (0#32 : BitVec 32)⟩,
  /- 20 name -/ ⟨.str, ([] : Str)⟩,
  /- 21 vertical_direction -/ ⟨.point, (⟨(⟨0x0000000000000000#64⟩ : F64), (⟨0x0000000000000000#64⟩ : F64), (⟨0x3ff0000000000000#64⟩ : F64)⟩ : Point)⟩,
  /- 22 top_height -/ ⟨.f64, (⟨0x0000000000000000#64⟩ : F64)⟩,
  /- 23 bottom_height -/ ⟨.f64, (⟨0x0000000000000000#64⟩ : F64)⟩,
  /- 24 indicator_transparency -/ ⟨.i16, (0#16 : BitVec 16)⟩,
  /- 25 indicator_color -/ ⟨.i16, (256#16 : I16)⟩,
  /- 26 indicator_color_name -/ ⟨.str, ([] : Str)⟩,
  /- 27 __vertex_count -/ ⟨.i32, (0#32 : BitVec 32)⟩,
  /- 28 vertices -/ ⟨.pts true, (⟨[], [], [], []⟩ : PtAcc)⟩,
  /- 29 __back_line_vertex_count -/ ⟨.i32, (0#32 : BitVec 32)⟩,
  /- 30 back_line_vertices -/ ⟨.pts true, (⟨[], [], [], []⟩ : PtAcc)⟩,
  /- 31 __geometry_settings_handle -/ ⟨.handle, (0#64 : Handle)⟩]

/-- Match arms of the reader of `Section`. -/
def Ent.sectionArms : List (Arm (commonDecls ++ Ent.sectionSpec)) := [
  ⟨90, .on 18 (.set .i32)⟩,
  ⟨91, .on 19 (.set .i32)⟩,
  ⟨1, .on 20 (.set .str)⟩,
  ⟨10, .on 21 (.axis .x)⟩,
  ⟨20, .on 21 (.axis .y)⟩,
  ⟨30, .on 21 (.axis .z)⟩,
  ⟨40, .on 22 (.set .f64)⟩,
  ⟨41, .on 23 (.set .f64)⟩,
  ⟨70, .on 24 (.set .i16)⟩,
  ⟨63, .on 25 (.set .i16)⟩,
  ⟨411, .on 26 (.set .str)⟩,
  ⟨92, .on 27 (.set .i32)⟩,
  ⟨11, .on 28 (.pushAxis .x)⟩,
  ⟨21, .on 28 (.pushAxis .y)⟩,
  ⟨31, .on 28 (.pushAxis .z)⟩,
  ⟨93, .on 29 (.set .i32)⟩,
  ⟨12, .on 30 (.pushAxis .x)⟩,
  ⟨22, .on 30 (.pushAxis .y)⟩,
  ⟨32, .on 30 (.pushAxis .z)⟩,
  ⟨360, .on 31 (.set .handle)⟩] ++ commonArms Ent.sectionSpec

/-- The specific write statements of `Section`. -/
def Ent.sectionCmds : List (GCmd (commonDecls ++ Ent.sectionSpec)) := [
  { cmd := .const (.newStr 100 str!"AcDbSection") },
  { cmd := .field 18 (.one 90 .i32) },
  { cmd := .field 19 (.one 91 .i32) },
  { cmd := .field 20 (.one 1 .str) },
  { cmd := .field 21 (.axes [(.x, 10), (.y, 20), (.z, 30)]) },
  { cmd := .field 22 (.one 40 .f64) },
  { cmd := .field 23 (.one 41 .f64) },
  { cmd := .field 24 (.one 70 .i16) },
  { cmd := .field 25 (.one 63 .i16) },
  { cmd := .field 26 (.one 411 .str) },
  { cmd := .computed (t := .i32) 92 .i32 (fun r => BitVec.ofNat 32 ((fun a : PtAcc => a.pts.length) (r 28))) },
  { cmd := .field 28 (.points fun | .x => 11 | .y => 21 | .z => 31) },
  { cmd := .computed (t := .i32) 93 .i32 (fun r => BitVec.ofNat 32 ((fun a : PtAcc => a.pts.length) (r 30))) },
  { cmd := .field 30 (.points fun | .x => 12 | .y => 22 | .z => 32) },
  { cmd := .field 31 (.one 360 .handle) }]

/-- `Seqend` has no fields. -/
def Ent.seqendSpec : List Decl := []

/-- Match arms of the reader of `Seqend`. -/
def Ent.seqendArms : List (Arm (commonDecls ++ Ent.seqendSpec)) := commonArms Ent.seqendSpec

/-- `Seqend` writes nothing specific. -/
def Ent.seqendCmds : List (GCmd (commonDecls ++ Ent.seqendSpec)) := []

/-- Fields of `Shape`. -/
def Ent.shapeSpec : List Decl := [
  /- 18 thickness -/ ⟨.f64, (⟨0x0000000000000000#64⟩ : F64)⟩,
  /- 19 location -/ ⟨.point, (⟨(⟨0x0000000000000000#64⟩ : F64), (⟨0x0000000000000000#64⟩ : F64), (⟨0x0000000000000000#64⟩ : F64)⟩ : Point)⟩,
  /- 20 size -/ ⟨.f64, (⟨0x0000000000000000#64⟩ : F64)⟩,
  /- 21 name -/ ⟨.str, ([] : Str)⟩,
  /- 22 rotation_angle -/ ⟨.f64, (⟨0x0000000000000000#64⟩ : F64)⟩,
  /- 23 relative_x_scale_factor -/ ⟨.f64, (⟨0x3ff0000000000000#64⟩ : F64)⟩,
  /- 24 oblique_angle -/ ⟨.f64, (⟨0x0000000000000000#64⟩ : F64)⟩,
  /- 25 extrusion_direction -/ ⟨.point, (⟨(⟨0x0000000000000000#64⟩ : F64), (⟨0x0000000000000000#64⟩ : F64), (⟨0x3ff0000000000000#64⟩ : F64)⟩ : Point)⟩]

/-- Match arms of the reader of `Shape`. -/
def Ent.shapeArms : List (Arm (commonDecls ++ Ent.shapeSpec)) := [
  ⟨39, .on 18 (.set .f64)⟩,
  ⟨10, .on 19 (.axis .x)⟩,
  ⟨20, .on 19 (.axis .y)⟩,
  ⟨30, .on 19 (.axis .z)⟩,
  ⟨40, .on 20 (.set .f64)⟩,
  ⟨2, .on 21 (.set .str)⟩,
  ⟨50, .on 22 (.set .f64)⟩,
  ⟨41, .on 23 (.set .f64)⟩,
  ⟨51, .on 24 (.set .f64)⟩,
  ⟨210, .on 25 (.axis .x)⟩,
  ⟨220, .on 25 (.axis .y)⟩,
  ⟨230, .on 25 (.axis .z)⟩] ++ commonArms Ent.shapeSpec

/-- The specific write statements of `Shape`. -/
def Ent.shapeCmds : List (GCmd (commonDecls ++ Ent.shapeSpec)) := [
  { cmd := .const (.newStr 100 str!"AcDbShape"), min := (some .r13) },
  { cmd := .field 18 (.one 39 .f64), cond := fun r => !(Ty.rustEq .f64 (r 18) (⟨0x0000000000000000#64⟩ : F64)) },
  { cmd := .field 19 (.axes [(.x, 10), (.y, 20), (.z, 30)]) },
  { cmd := .field 20 (.one 40 .f64) },
  { cmd := .field 21 (.one 2 .str) },
  { cmd := .field 22 (.one 50 .f64), cond := fun r => !(Ty.rustEq .f64 (r 22) (⟨0x0000000000000000#64⟩ : F64)) },
  { cmd := .field 23 (.one 41 .f64), cond := fun r => !(Ty.rustEq .f64 (r 23) (⟨0x3ff0000000000000#64⟩ : F64)) },
  { cmd := .field 24 (.one 51 .f64), cond := fun r => !(Ty.rustEq .f64 (r 24) (⟨0x0000000000000000#64⟩ : F64)) },
  { cmd := .field 25 (.axes [(.x, 210), (.y, 220), (.z, 230)]), cond := fun r => !(Ty.rustEq .point (r 25) (⟨(⟨0x0000000000000000#64⟩ : F64), (⟨0x0000000000000000#64⟩ : F64), (⟨0x3ff0000000000000#64⟩ : F64)⟩ : Point)) }]

/-- Fields of `Solid`. -/
def Ent.solidSpec : List Decl := [
  /- 18 first_corner -/ ⟨.point, (⟨(⟨0x0000000000000000#64⟩ : F64), (⟨0x0000000000000000#64⟩ : F64), (⟨0x0000000000000000#64⟩ : F64)⟩ : Point)⟩,
  /- 19 second_corner -/ ⟨.point, (⟨(⟨0x0000000000000000#64⟩ : F64), (⟨0x0000000000000000#64⟩ : F64), (⟨0x0000000000000000#64⟩ : F64)⟩ : Point)⟩,
  /- 20 third_corner -/ ⟨.point, (⟨(⟨0x0000000000000000#64⟩ : F64), (⟨0x0000000000000000#64⟩ : F64), (⟨0x0000000000000000#64⟩ : F64)⟩ : Point)⟩,
  /- 21 fourth_corner -/ ⟨.point, (⟨(⟨0x0000000000000000#64⟩ : F64), (⟨0x0000000000000000#64⟩ : F64), (⟨0x0000000000000000#64⟩ : F64)⟩ : Point)⟩,
  /- 22 thickness -/ ⟨.f64, (⟨0x0000000000000000#64⟩ : F64)⟩,
  /- 23 extrusion_direction -/ ⟨.point, (⟨(⟨0x0000000000000000#64⟩ : F64), (⟨0x0000000000000000#64⟩ : F64), (⟨0x3ff0000000000000#64⟩ : F64)⟩ : Point)⟩]

/-- Match arms of the reader of `Solid`. -/
def Ent.solidArms : List (Arm (commonDecls ++ Ent.solidSpec)) := [
  ⟨10, .on 18 (.axis .x)⟩,
  ⟨20, .on 18 (.axis .y)⟩,
  ⟨30, .on 18 (.axis .z)⟩,
  ⟨11, .on 19 (.axis .x)⟩,
  ⟨21, .on 19 (.axis .y)⟩,
  ⟨31, .on 19 (.axis .z)⟩,
  ⟨12, .on 20 (.axis .x)⟩,
  ⟨22, .on 20 (.axis .y)⟩,
  ⟨32, .on 20 (.axis .z)⟩,
  ⟨13, .on 21 (.axis .x)⟩,
  ⟨23, .on 21 (.axis .y)⟩,
  ⟨33, .on 21 (.axis .z)⟩,
  ⟨39, .on 22 (.set .f64)⟩,
  ⟨210, .on 23 (.axis .x)⟩,
  ⟨220, .on 23 (.axis .y)⟩,
  ⟨230, .on 23 (.axis .z)⟩] ++ commonArms Ent.solidSpec

/-- The specific write statements of `Solid`. -/
def Ent.solidCmds : List (GCmd (commonDecls ++ Ent.solidSpec)) := [
  { cmd := .const (.newStr 100 str!"AcDbTrace"), min := (some .r13) },
  { cmd := .field 18 (.axes [(.x, 10), (.y, 20), (.z, 30)]) },
  { cmd := .field 19 (.axes [(.x, 11), (.y, 21), (.z, 31)]) },
  { cmd := .field 20 (.axes [(.x, 12), (.y, 22), (.z, 32)]) },
  { cmd := .field 21 (.axes [(.x, 13), (.y, 23), (.z, 33)]) },
  { cmd := .field 22 (.one 39 .f64), cond := fun r => !(Ty.rustEq .f64 (r 22) (⟨0x0000000000000000#64⟩ : F64)) },
  { cmd := .field 23 (.axes [(.x, 210), (.y, 220), (.z, 230)]), cond := fun r => !(Ty.rustEq .point (r 23) (⟨(⟨0x0000000000000000#64⟩ : F64), (⟨0x0000000000000000#64⟩ : F64), (⟨0x3ff0000000000000#64⟩ : F64)⟩ : Point)) }]

/-- Fields of `Spline`. -/
def Ent.splineSpec : List Decl := [
  /- 18 normal -/ ⟨.point, (⟨(⟨0x0000000000000000#64⟩ : F64), (⟨0x0000000000000000#64⟩ : F64), (⟨0x3ff0000000000000#64⟩ : F64)⟩ : Point)⟩,
  /- 19 flags -/ ⟨.i32, (0#32 : BitVec 32)⟩,
  /- 20 degree_of_curve -/ ⟨.i32, (1#32 : BitVec 32)⟩,
  /- 21 __number_of_knots_ignored -/ ⟨.i32, (0#32 : BitVec 32)⟩,
  /- 22 __number_of_control_points_ignored -/ ⟨.i32, (0#32 : BitVec 32)⟩,
  /- 23 __number_of_fit_points_ignored -/ ⟨.i32, (0#32 : BitVec 32)⟩,
  /- 24 knot_tolerance -/ ⟨.f64, (⟨0x3e7ad7f29abcaf48#64⟩ : F64)⟩,
  /- 25 control_point_tolerance -/ ⟨.f64, (⟨0x3e7ad7f29abcaf48#64⟩ : F64)⟩,
  /- 26 fit_tolerance -/ ⟨.f64, (⟨0x3ddb7cdfd9d7bdbb#64⟩ : F64)⟩,
  /- 27 start_tangent -/ ⟨.point, (⟨(⟨0x0000000000000000#64⟩ : F64), (⟨0x0000000000000000#64⟩ : F64), (⟨0x0000000000000000#64⟩ : F64)⟩ : Point)⟩,
  /- 28 end_tangent -/ ⟨.point, (⟨(⟨0x0000000000000000#64⟩ : F64), (⟨0x0000000000000000#64⟩ : F64), (⟨0x0000000000000000#64⟩ : F64)⟩ : Point)⟩,
  /- 29 knot_values -/ ⟨.list .f64, ([] : List (F64))⟩,
  /- 30 weight_values -/ ⟨.list .f64, ([] : List (F64))⟩,
  /- 31 control_points -/ ⟨.pts true, (⟨[], [], [], []⟩ : PtAcc)⟩,
  /- 32 fit_points -/ ⟨.pts true, (⟨[], [], [], []⟩ : PtAcc)⟩]

/-- Match arms of the reader of `Spline`. -/
def Ent.splineArms : List (Arm (commonDecls ++ Ent.splineSpec)) := [
  ⟨210, .on 18 (.axis .x)⟩,
  ⟨220, .on 18 (.axis .y)⟩,
  ⟨230, .on 18 (.axis .z)⟩,
  ⟨70, .on 19 (.set .i32OfI16)⟩,
  ⟨71, .on 20 (.set .i32OfI16)⟩,
  ⟨72, .on 21 (.set .i32OfI16)⟩,
  ⟨73, .on 22 (.set .i32OfI16)⟩,
  ⟨74, .on 23 (.set .i32OfI16)⟩,
  ⟨42, .on 24 (.set .f64)⟩,
  ⟨43, .on 25 (.set .f64)⟩,
  ⟨44, .on 26 (.set .f64)⟩,
  ⟨12, .on 27 (.axis .x)⟩,
  ⟨22, .on 27 (.axis .y)⟩,
  ⟨32, .on 27 (.axis .z)⟩,
  ⟨13, .on 28 (.axis .x)⟩,
  ⟨23, .on 28 (.axis .y)⟩,
  ⟨33, .on 28 (.axis .z)⟩,
  ⟨40, .on 29 (.push .f64)⟩,
  ⟨41, .on 30 (.push .f64)⟩,
  ⟨10, .on 31 (.pushAxis .x)⟩,
  ⟨20, .on 31 (.pushAxis .y)⟩,
  ⟨30, .on 31 (.pushAxis .z)⟩,
  ⟨11, .on 32 (.pushAxis .x)⟩,
  ⟨21, .on 32 (.pushAxis .y)⟩,
  ⟨31, .on 32 (.pushAxis .z)⟩] ++ commonArms Ent.splineSpec

/-- The specific write statements of `Spline`. -/
def Ent.splineCmds : List (GCmd (commonDecls ++ Ent.splineSpec)) := [
  { cmd := .const (.newStr 100 str!"AcDbSpline") },
  { cmd := .field 18 (.axes [(.x, 210), (.y, 220), (.z, 230)]) },
  { cmd := .field 19 (.one 70 .i32AsI16) },
  { cmd := .field 20 (.one 71 .i32AsI16) },
  { cmd := .computed (t := .i32) 72 .i32AsI16 (fun r => BitVec.ofNat 32 ((fun a : List (F64) => a.length) (r 29))) },
  { cmd := .computed (t := .i32) 73 .i32AsI16 (fun r => BitVec.ofNat 32 ((fun a : PtAcc => a.pts.length) (r 31))) },
  { cmd := .computed (t := .i32) 74 .i32AsI16 (fun r => BitVec.ofNat 32 ((fun a : PtAcc => a.pts.length) (r 32))) },
  { cmd := .field 24 (.one 42 .f64), cond := fun r => !(Ty.rustEq .f64 (r 24) (⟨0x3e7ad7f29abcaf48#64⟩ : F64)) },
  { cmd := .field 25 (.one 43 .f64), cond := fun r => !(Ty.rustEq .f64 (r 25) (⟨0x3e7ad7f29abcaf48#64⟩ : F64)) },
  { cmd := .field 26 (.one 44 .f64), cond := fun r => !(Ty.rustEq .f64 (r 26) (⟨0x3ddb7cdfd9d7bdbb#64⟩ : F64)) },
  { cmd := .field 27 (.axes [(.x, 12), (.y, 22), (.z, 32)]) },
  { cmd := .field 28 (.axes [(.x, 13), (.y, 23), (.z, 33)]) },
  { cmd := .field 29 (.many 40 .f64) },
  { cmd := .field 30 (.many 41 .f64) },
  { cmd := .field 31 (.points fun | .x => 10 | .y => 20 | .z => 30) },
  { cmd := .field 32 (.points fun | .x => 11 | .y => 21 | .z => 31) }]

/-- Fields of `Text`. -/
def Ent.textSpec : List Decl := [
  /- 18 thickness -/ ⟨.f64, (⟨0x0000000000000000#64⟩ : F64)⟩,
  /- 19 location -/ ⟨.point, (⟨(⟨0x0000000000000000#64⟩ : F64), (⟨0x0000000000000000#64⟩ : F64), (⟨0x0000000000000000#64⟩ : F64)⟩ : Point)⟩,
  /- 20 text_height -/ ⟨.f64, (⟨0x3ff0000000000000#64⟩ : F64)⟩,
  /- 21 value -/ ⟨.str, ([] : Str)⟩,
  /- 22 rotation -/ ⟨.f64, (⟨0x0000000000000000#64⟩ : F64)⟩,
  /- 23 relative_x_scale_factor -/ ⟨.f64, (⟨0x3ff0000000000000#64⟩ : F64)⟩,
  /- 24 oblique_angle -/ ⟨.f64, (⟨0x0000000000000000#64⟩ : F64)⟩,
  /- 25 text_style_name -/ ⟨.str, (str!"STANDARD" : Str)⟩,
  /- 26 text_generation_flags -/ ⟨.i32, (0#32 : BitVec 32)⟩,
  /- 27 horizontal_text_justification -/ ⟨.enum E.horizontalTextJustification, (⟨0, by decide⟩ : Fin (List.length E.horizontalTextJustification))⟩,
  /- 28 second_alignment_point -/ ⟨.point, (⟨(⟨0x0000000000000000#64⟩ : F64), (⟨0x0000000000000000#64⟩ : F64), (⟨0x0000000000000000#64⟩ : F64)⟩ : Point)⟩,
  /- 29 normal -/ ⟨.point, (⟨(⟨0x0000000000000000#64⟩ : F64), (⟨0x0000000000000000#64⟩ : F64), (⟨0x3ff0000000000000#64⟩ : F64)⟩ : Point)⟩,
  /- 30 vertical_text_justification -/ ⟨.enum E.verticalTextJustification, (⟨0, by decide⟩ : Fin (List.length E.verticalTextJustification))⟩]

/-- Match arms of the reader of `Text`. -/
def Ent.textArms : List (Arm (commonDecls ++ Ent.textSpec)) := [
  ⟨39, .on 18 (.set .f64)⟩,
  ⟨10, .on 19 (.axis .x)⟩,
  ⟨20, .on 19 (.axis .y)⟩,
  ⟨30, .on 19 (.axis .z)⟩,
  ⟨40, .on 20 (.set .f64)⟩,
  ⟨1, .on 21 (.set .str)⟩,
  ⟨50, .on 22 (.set .f64)⟩,
  ⟨41, .on 23 (.set .f64)⟩,
  ⟨51, .on 24 (.set .f64)⟩,
  ⟨7, .on 25 (.set .str)⟩,
  ⟨71, .on 26 (.set .i32OfI16)⟩,
  ⟨72, .on 27 (.set (.enumI16 E.horizontalTextJustification ⟨0, by decide⟩))⟩,
  ⟨11, .on 28 (.axis .x)⟩,
  ⟨21, .on 28 (.axis .y)⟩,
  ⟨31, .on 28 (.axis .z)⟩,
  ⟨210, .on 29 (.axis .x)⟩,
  ⟨220, .on 29 (.axis .y)⟩,
  ⟨230, .on 29 (.axis .z)⟩,
  ⟨73, .on 30 (.set (.enumI16 E.verticalTextJustification ⟨0, by decide⟩))⟩] ++ commonArms Ent.textSpec

/-- The specific write statements of `Text`. -/
def Ent.textCmds : List (GCmd (commonDecls ++ Ent.textSpec)) := [
  { cmd := .const (.newStr 100 str!"AcDbText"), min := (some .r13) },
  { cmd := .field 18 (.one 39 .f64), cond := fun r => !(Ty.rustEq .f64 (r 18) (⟨0x0000000000000000#64⟩ : F64)) },
  { cmd := .field 19 (.axes [(.x, 10), (.y, 20), (.z, 30)]) },
  { cmd := .field 20 (.one 40 .f64) },
  { cmd := .field 21 (.one 1 .str) },
  { cmd := .field 22 (.one 50 .f64), cond := fun r => !(Ty.rustEq .f64 (r 22) (⟨0x0000000000000000#64⟩ : F64)) },
  { cmd := .field 23 (.one 41 .f64), cond := fun r => !(Ty.rustEq .f64 (r 23) (⟨0x3ff0000000000000#64⟩ : F64)) },
  { cmd := .field 24 (.one 51 .f64), cond := fun r => !(Ty.rustEq .f64 (r 24) (⟨0x0000000000000000#64⟩ : F64)) },
  { cmd := .field 25 (.one 7 .str), cond := fun r => !(Ty.rustEq .str (r 25) (str!"STANDARD" : Str)) },
  { cmd := .field 26 (.one 71 .i32AsI16), cond := fun r => !(Ty.rustEq .i32 (r 26) (0#32 : BitVec 32)) },
  { cmd := .field 27 (.one 72 (.enumI16 E.horizontalTextJustification)), cond := fun r => !(Ty.rustEq (.enum E.horizontalTextJustification) (r 27) (⟨0, by decide⟩ : Fin (List.length E.horizontalTextJustification))) },
  { cmd := .field 28 (.axes [(.x, 11), (.y, 21), (.z, 31)]), cond := fun r => !(Ty.rustEq .point (r 28) (⟨(⟨0x0000000000000000#64⟩ : F64), (⟨0x0000000000000000#64⟩ : F64), (⟨0x0000000000000000#64⟩ : F64)⟩ : Point)) },
  { cmd := .field 29 (.axes [(.x, 210), (.y, 220), (.z, 230)]), cond := fun r => !(Ty.rustEq .point (r 29) (⟨(⟨0x0000000000000000#64⟩ : F64), (⟨0x0000000000000000#64⟩ : F64), (⟨0x3ff0000000000000#64⟩ : F64)⟩ : Point)) },
  { cmd := .field 30 (.one 73 (.enumI16 E.verticalTextJustification)), cond := fun r => !(Ty.rustEq (.enum E.verticalTextJustification) (r 30) (⟨0, by decide⟩ : Fin (List.length E.verticalTextJustification))) },
  { cmd := .const (.newStr 100 str!"AcDbText"), min := (some .r13) }]

/-- Fields of `Tolerance`. -/
def Ent.toleranceSpec : List Decl := [
  /- 18 dimension_style_name -/ ⟨.str, ([] : Str)⟩,
  /- 19 insertion_point -/ ⟨.point, (⟨(⟨0x0000000000000000#64⟩ : F64), (⟨0x0000000000000000#64⟩ : F64), (⟨0x0000000000000000#64⟩ : F64)⟩ : Point)⟩,
  /- 20 display_text -/ ⟨.str, ([] : Str)⟩,
  /- 21 extrusion_direction -/ ⟨.point, (⟨(⟨0x0000000000000000#64⟩ : F64), (⟨0x0000000000000000#64⟩ : F64), (⟨0x3ff0000000000000#64⟩ : F64)⟩ : Point)⟩,
  /- 22 direction_vector -/ ⟨.point, (⟨(⟨0x3ff0000000000000#64⟩ : F64), (⟨0x0000000000000000#64⟩ : F64), (⟨0x0000000000000000#64⟩ : F64)⟩ : Point)⟩]

/-- Match arms of the reader of `Tolerance`. -/
def Ent.toleranceArms : List (Arm (commonDecls ++ Ent.toleranceSpec)) := [
  ⟨3, .on 18 (.set .str)⟩,
  ⟨10, .on 19 (.axis .x)⟩,
  ⟨20, .on 19 (.axis .y)⟩,
  ⟨30, .on 19 (.axis .z)⟩,
  ⟨1, .on 20 (.set .str)⟩,
  ⟨210, .on 21 (.axis .x)⟩,
  ⟨220, .on 21 (.axis .y)⟩,
  ⟨230, .on 21 (.axis .z)⟩,
  ⟨11, .on 22 (.axis .x)⟩,
  ⟨21, .on 22 (.axis .y)⟩,
  ⟨31, .on 22 (.axis .z)⟩] ++ commonArms Ent.toleranceSpec

/-- The specific write statements of `Tolerance`. -/
def Ent.toleranceCmds : List (GCmd (commonDecls ++ Ent.toleranceSpec)) := [
  { cmd := .const (.newStr 100 str!"AcDbFcf"), min := (some .r13) },
  { cmd := .field 18 (.one 3 .str) },
  { cmd := .field 19 (.axes [(.x, 10), (.y, 20), (.z, 30)]) },
  { cmd := .field 20 (.one 1 .str), min := (some .r2000) },
  { cmd := .field 21 (.axes [(.x, 210), (.y, 220), (.z, 230)]), cond := fun r => !(Ty.rustEq .point (r 21) (⟨(⟨0x0000000000000000#64⟩ : F64), (⟨0x0000000000000000#64⟩ : F64), (⟨0x3ff0000000000000#64⟩ : F64)⟩ : Point)) },
  { cmd := .field 22 (.axes [(.x, 11), (.y, 21), (.z, 31)]) }]

/-- Fields of `Trace`. -/
def Ent.traceSpec : List Decl := [
  /- 18 first_corner -/ ⟨.point, (⟨(⟨0x0000000000000000#64⟩ : F64), (⟨0x0000000000000000#64⟩ : F64), (⟨0x0000000000000000#64⟩ : F64)⟩ : Point)⟩,
  /- 19 second_corner -/ ⟨.point, (⟨(⟨0x0000000000000000#64⟩ : F64), (⟨0x0000000000000000#64⟩ : F64), (⟨0x0000000000000000#64⟩ : F64)⟩ : Point)⟩,
  /- 20 third_corner -/ ⟨.point, (⟨(⟨0x0000000000000000#64⟩ : F64), (⟨0x0000000000000000#64⟩ : F64), (⟨0x0000000000000000#64⟩ : F64)⟩ : Point)⟩,
  /- 21 fourth_corner -/ ⟨.point, (⟨(⟨0x0000000000000000#64⟩ : F64), (⟨0x0000000000000000#64⟩ : F64), (⟨0x0000000000000000#64⟩ : F64)⟩ : Point)⟩,
  /- 22 thickness -/ ⟨.f64, (⟨0x0000000000000000#64⟩ : F64)⟩,
  /- 23 extrusion_direction -/ ⟨.point, (⟨(⟨0x0000000000000000#64⟩ : F64), (⟨0x0000000000000000#64⟩ : F64), (⟨0x3ff0000000000000#64⟩ : F64)⟩ : Point)⟩]

/-- Match arms of the reader of `Trace`. -/
def Ent.traceArms : List (Arm (commonDecls ++ Ent.traceSpec)) := [
  ⟨10, .on 18 (.axis .x)⟩,
  ⟨20, .on 18 (.axis .y)⟩,
  ⟨30, .on 18 (.axis .z)⟩,
  ⟨11, .on 19 (.axis .x)⟩,
  ⟨21, .on 19 (.axis .y)⟩,
  ⟨31, .on 19 (.axis .z)⟩,
  ⟨12, .on 20 (.axis .x)⟩,
  ⟨22, .on 20 (.axis .y)⟩,
  ⟨32, .on 20 (.axis .z)⟩,
  ⟨13, .on 21 (.axis .x)⟩,
  ⟨23, .on 21 (.axis .y)⟩,
  ⟨33, .on 21 (.axis .z)⟩,
  ⟨39, .on 22 (.set .f64)⟩,
  ⟨210, .on 23 (.axis .x)⟩,
  ⟨220, .on 23 (.axis .y)⟩,
  ⟨230, .on 23 (.axis .z)⟩] ++ commonArms Ent.traceSpec

/-- The specific write statements of `Trace`. -/
def Ent.traceCmds : List (GCmd (commonDecls ++ Ent.traceSpec)) := [
  { cmd := .const (.newStr 100 str!"AcDbTrace"), min := (some .r13) },
  { cmd := .field 18 (.axes [(.x, 10), (.y, 20), (.z, 30)]) },
  { cmd := .field 19 (.axes [(.x, 11), (.y, 21), (.z, 31)]) },
  { cmd := .field 20 (.axes [(.x, 12), (.y, 22), (.z, 32)]) },
  { cmd := .field 21 (.axes [(.x, 13), (.y, 23), (.z, 33)]) },
  { cmd := .field 22 (.one 39 .f64), cond := fun r => !(Ty.rustEq .f64 (r 22) (⟨0x0000000000000000#64⟩ : F64)) },
  { cmd := .field 23 (.axes [(.x, 210), (.y, 220), (.z, 230)]), cond := fun r => !(Ty.rustEq .point (r 23) (⟨(⟨0x0000000000000000#64⟩ : F64), (⟨0x0000000000000000#64⟩ : F64), (⟨0x3ff0000000000000#64⟩ : F64)⟩ : Point)) }]

/-- Fields of `DgnUnderlay`. -/
def Ent.dgnUnderlaySpec : List Decl := [
  /- 18 __object_handle -/ ⟨.handle, (0#64 : Handle)⟩,
  /- 19 insertion_point -/ ⟨.point, (⟨(⟨0x0000000000000000#64⟩ : F64), (⟨0x0000000000000000#64⟩ : F64), (⟨0x0000000000000000#64⟩ : F64)⟩ : Point)⟩,
  /- 20 x_scale -/ ⟨.f64, (⟨0x3ff0000000000000#64⟩ : F64)⟩,
  /- 21 y_scale -/ ⟨.f64, (⟨0x3ff0000000000000#64⟩ : F64)⟩,
  /- 22 z_scale -/ ⟨.f64, (⟨0x3ff0000000000000#64⟩ : F64)⟩,
  /- 23 rotation_angle -/ ⟨.f64, (⟨0x0000000000000000#64⟩ : F64)⟩,
  /- 24 normal -/ ⟨.point, (⟨(⟨0x0000000000000000#64⟩ : F64), (⟨0x0000000000000000#64⟩ : F64), (⟨0x3ff0000000000000#64⟩ : F64)⟩ : Point)⟩,
  /- 25 flags -/ ⟨.i32, (0#32 : BitVec 32)⟩,
  /- 26 contrast -/ ⟨.i16, (100#16 : BitVec 16)⟩,
  /- 27 fade -/ ⟨.i16, (0#16 : BitVec 16)⟩,
  /- 28 points -/ ⟨.pts false, (⟨[], [], [], []⟩ : PtAcc)⟩]

/-- Match arms of the reader of `DgnUnderlay`. -/
def Ent.dgnUnderlayArms : List (Arm (commonDecls ++ Ent.dgnUnderlaySpec)) := [
  ⟨340, .on 18 (.set .handle)⟩,
  ⟨10, .on 19 (.axis .x)⟩,
  ⟨20, .on 19 (.axis .y)⟩,
  ⟨30, .on 19 (.axis .z)⟩,
  ⟨41, .on 20 (.set .f64)⟩,
  ⟨42, .on 21 (.set .f64)⟩,
  ⟨43, .on 22 (.set .f64)⟩,
  ⟨50, .on 23 (.set .f64)⟩,
  ⟨210, .on 24 (.axis .x)⟩,
  ⟨220, .on 24 (.axis .y)⟩,
  ⟨230, .on 24 (.axis .z)⟩,
  ⟨280, .on 25 (.set .i32OfI16)⟩,
  ⟨281, .on 26 (.set .i16)⟩,
  ⟨282, .on 27 (.set .i16)⟩,
  ⟨11, .on 28 (.pushAxis .x)⟩,
  ⟨21, .on 28 (.pushAxis .y)⟩] ++ commonArms Ent.dgnUnderlaySpec

/-- The specific write statements of `DgnUnderlay`. -/
def Ent.dgnUnderlayCmds : List (GCmd (commonDecls ++ Ent.dgnUnderlaySpec)) := [
  { cmd := .const (.newStr 100 str!"AcDbUnderlayReference") },
  { cmd := .field 18 (.one 340 .handle) },
  { cmd := .field 19 (.axes [(.x, 10), (.y, 20), (.z, 30)]) },
  { cmd := .field 20 (.one 41 .f64) },
  { cmd := .field 21 (.one 42 .f64) },
  { cmd := .field 22 (.one 43 .f64) },
  { cmd := .field 23 (.one 50 .f64) },
  { cmd := .field 24 (.axes [(.x, 210), (.y, 220), (.z, 230)]) },
  { cmd := .field 25 (.one 280 .i32AsI16) },
  { cmd := .field 26 (.one 281 .i16) },
  { cmd := .field 27 (.one 282 .i16) },
  { cmd := .field 28 (.points fun | .x => 11 | .y => 12 | .z => 12) }]

/-- Fields of `DwfUnderlay`. -/
def Ent.dwfUnderlaySpec : List Decl := [
  /- 18 __object_handle -/ ⟨.handle, (0#64 : Handle)⟩,
  /- 19 insertion_point -/ ⟨.point, (⟨(⟨0x0000000000000000#64⟩ : F64), (⟨0x0000000000000000#64⟩ : F64), (⟨0x0000000000000000#64⟩ : F64)⟩ : Point)⟩,
  /- 20 x_scale -/ ⟨.f64, (⟨0x3ff0000000000000#64⟩ : F64)⟩,
  /- 21 y_scale -/ ⟨.f64, (⟨0x3ff0000000000000#64⟩ : F64)⟩,
  /- 22 z_scale -/ ⟨.f64, (⟨0x3ff0000000000000#64⟩ : F64)⟩,
  /- 23 rotation_angle -/ ⟨.f64, (⟨0x0000000000000000#64⟩ : F64)⟩,
  /- 24 normal -/ ⟨.point, (⟨(⟨0x0000000000000000#64⟩ : F64), (⟨0x0000000000000000#64⟩ : F64), (⟨0x3ff0000000000000#64⟩ : F64)⟩ : Point)⟩,
  /- 25 flags -/ ⟨.i32, (0#32 : BitVec 32)⟩,
  /- 26 contrast -/ ⟨.i16, (100#16 : BitVec 16)⟩,
  /- 27 fade -/ ⟨.i16, (0#16 : BitVec 16)⟩,
  /- 28 points -/ ⟨.pts false, (⟨[], [], [], []⟩ : PtAcc)⟩]

/-- Match arms of the reader of `DwfUnderlay`. -/
def Ent.dwfUnderlayArms : List (Arm (commonDecls ++ Ent.dwfUnderlaySpec)) := [
  ⟨340, .on 18 (.set .handle)⟩,
  ⟨10, .on 19 (.axis .x)⟩,
  ⟨20, .on 19 (.axis .y)⟩,
  ⟨30, .on 19 (.axis .z)⟩,
  ⟨41, .on 20 (.set .f64)⟩,
  ⟨42, .on 21 (.set .f64)⟩,
  ⟨43, .on 22 (.set .f64)⟩,
  ⟨50, .on 23 (.set .f64)⟩,
  ⟨210, .on 24 (.axis .x)⟩,
  ⟨220, .on 24 (.axis .y)⟩,
  ⟨230, .on 24 (.axis .z)⟩,
  ⟨280, .on 25 (.set .i32OfI16)⟩,
  ⟨281, .on 26 (.set .i16)⟩,
  ⟨282, .on 27 (.set .i16)⟩,
  ⟨11, .on 28 (.pushAxis .x)⟩,
  ⟨21, .on 28 (.pushAxis .y)⟩] ++ commonArms Ent.dwfUnderlaySpec

/-- The specific write statements of `DwfUnderlay`. -/
def Ent.dwfUnderlayCmds : List (GCmd (commonDecls ++ Ent.dwfUnderlaySpec)) := [
  { cmd := .const (.newStr 100 str!"AcDbUnderlayReference") },
  { cmd := .field 18 (.one 340 .handle) },
  { cmd := .field 19 (.axes [(.x, 10), (.y, 20), (.z, 30)]) },
  { cmd := .field 20 (.one 41 .f64) },
  { cmd := .field 21 (.one 42 .f64) },
  { cmd := .field 22 (.one 43 .f64) },
  { cmd := .field 23 (.one 50 .f64) },
  { cmd := .field 24 (.axes [(.x, 210), (.y, 220), (.z, 230)]) },
  { cmd := .field 25 (.one 280 .i32AsI16) },
  { cmd := .field 26 (.one 281 .i16) },
  { cmd := .field 27 (.one 282 .i16) },
  { cmd := .field 28 (.points fun | .x => 11 | .y => 12 | .z => 12) }]

/-- Fields of `PdfUnderlay`. -/
def Ent.pdfUnderlaySpec : List Decl := [
  /- 18 __object_handle -/ ⟨.handle, (0#64 : Handle)⟩,
  /- 19 insertion_point -/ ⟨.point, (⟨(⟨0x0000000000000000#64⟩ : F64), (⟨0x0000000000000000#64⟩ : F64), (⟨0x0000000000000000#64⟩ : F64)⟩ : Point)⟩,
  /- 20 x_scale -/ ⟨.f64, (⟨0x3ff0000000000000#64⟩ : F64)⟩,
  /- 21 y_scale -/ ⟨.f64, (⟨0x3ff0000000000000#64⟩ : F64)⟩,
  /- 22 z_scale -/ ⟨.f64, (⟨0x3ff0000000000000#64⟩ : F64)⟩,
  /- 23 rotation_angle -/ ⟨.f64, (⟨0x0000000000000000#64⟩ : F64)⟩,
  /- 24 normal -/ ⟨.point, (⟨(⟨0x0000000000000000#64⟩ : F64), (⟨0x0000000000000000#64⟩ : F64), (⟨0x3ff0000000000000#64⟩ : F64)⟩ : Point)⟩,
  /- 25 flags -/ ⟨.i32, (0#32 : BitVec 32)⟩,
  /- 26 contrast -/ ⟨.i16, (100#16 : BitVec 16)⟩,
  /- 27 fade -/ ⟨.i16, (0#16 : BitVec 16)⟩,
  /- 28 points -/ ⟨.pts false, (⟨[], [], [], []⟩ : PtAcc)⟩]

/-- Match arms of the reader of `PdfUnderlay`. -/
def Ent.pdfUnderlayArms : List (Arm (commonDecls ++ Ent.pdfUnderlaySpec)) := [
  ⟨340, .on 18 (.set .handle)⟩,
  ⟨10, .on 19 (.axis .x)⟩,
  ⟨20, .on 19 (.axis .y)⟩,
  ⟨30, .on 19 (.axis .z)⟩,
  ⟨41, .on 20 (.set .f64)⟩,
  ⟨42, .on 21 (.set .f64)⟩,
  ⟨43, .on 22 (.set .f64)⟩,
  ⟨50, .on 23 (.set .f64)⟩,
  ⟨210, .on 24 (.axis .x)⟩,
  ⟨220, .on 24 (.axis .y)⟩,
  ⟨230, .on 24 (.axis .z)⟩,
  ⟨280, .on 25 (.set .i32OfI16)⟩,
  ⟨281, .on 26 (.set .i16)⟩,
  ⟨282, .on 27 (.set .i16)⟩,
  ⟨11, .on 28 (.pushAxis .x)⟩,
  ⟨21, .on 28 (.pushAxis .y)⟩] ++ commonArms Ent.pdfUnderlaySpec

/-- The specific write statements of `PdfUnderlay`. -/
def Ent.pdfUnderlayCmds : List (GCmd (commonDecls ++ Ent.pdfUnderlaySpec)) := [
  { cmd := .const (.newStr 100 str!"AcDbUnderlayReference") },
  { cmd := .field 18 (.one 340 .handle) },
  { cmd := .field 19 (.axes [(.x, 10), (.y, 20), (.z, 30)]) },
  { cmd := .field 20 (.one 41 .f64) },
  { cmd := .field 21 (.one 42 .f64) },
  { cmd := .field 22 (.one 43 .f64) },
  { cmd := .field 23 (.one 50 .f64) },
  { cmd := .field 24 (.axes [(.x, 210), (.y, 220), (.z, 230)]) },
  { cmd := .field 25 (.one 280 .i32AsI16) },
  { cmd := .field 26 (.one 281 .i16) },
  { cmd := .field 27 (.one 282 .i16) },
  { cmd := .field 28 (.points fun | .x => 11 | .y => 12 | .z => 12) }]

/-- Fields of `Vertex`. -/
def Ent.vertexSpec : List Decl := [
  /- 18 location -/ ⟨.point, (⟨(⟨0x0000000000000000#64⟩ : F64), (⟨0x0000000000000000#64⟩ : F64), (⟨0x0000000000000000#64⟩ : F64)⟩ : Point)⟩,
  /- 19 starting_width -/ ⟨.f64, (⟨0x0000000000000000#64⟩ : F64)⟩,
  /- 20 ending_width -/ ⟨.f64, (⟨0x0000000000000000#64⟩ : F64)⟩,
  /- 21 bulge -/ ⟨.f64, (⟨0x0000000000000000#64⟩ : F64)⟩,
  /- 22 flags -/ ⟨.i32, (0#32 : BitVec 32)⟩,
  /- 23 curve_fit_tangent_direction -/ ⟨.f64, (⟨0x0000000000000000#64⟩ : F64)⟩,
  /- 24 polyface_mesh_vertex_index1 -/ ⟨.i32, (0#32 : BitVec 32)⟩,
  /- 25 polyface_mesh_vertex_index2 -/ ⟨.i32, (0#32 : BitVec 32)⟩,
  /- 26 polyface_mesh_vertex_index3 -/ ⟨.i32, (0#32 : BitVec 32)⟩,
  /- 27 polyface_mesh_vertex_index4 -/ ⟨.i32, (0#32 : BitVec 32)⟩,
  /- 28 identifier -/ ⟨.i32, (0#32 : BitVec 32)⟩]

/-- Match arms of the reader of `Vertex`. -/
def Ent.vertexArms : List (Arm (commonDecls ++ Ent.vertexSpec)) := [
  ⟨10, .on 18 (.axis .x)⟩,
  ⟨20, .on 18 (.axis .y)⟩,
  ⟨30, .on 18 (.axis .z)⟩,
  ⟨40, .on 19 (.set .f64)⟩,
  ⟨41, .on 20 (.set .f64)⟩,
  ⟨42, .on 21 (.set .f64)⟩,
  ⟨70, .on 22 (.set .i32OfI16)⟩,
  ⟨50, .on 23 (.set .f64)⟩,
  ⟨71, .on 24 (.set .i32OfI16)⟩,
  ⟨72, .on 25 (.set .i32OfI16)⟩,
  ⟨73, .on 26 (.set .i32OfI16)⟩,
  ⟨74, .on 27 (.set .i32OfI16)⟩,
  ⟨91, .on 28 (.set .i32)⟩] ++ commonArms Ent.vertexSpec

/-- The specific write statements of `Vertex`. -/
def Ent.vertexCmds : List (GCmd (commonDecls ++ Ent.vertexSpec)) := [
  { cmd := .const (.newStr 100 str!"AcDbVertex") },
  { cmd := .computed (t := .str) 100 .str (fun r => bif getFlag (w := 32) (r 22) 32#32 || getFlag (w := 32) (r 22) 64#32 then str!"AcDb3dPolylineVertex" else str!"AcDb2dVertex"), min := (some .r13) },
  { cmd := .field 18 (.axes [(.x, 10), (.y, 20), (.z, 30)]) },
  { cmd := .field 19 (.one 40 .f64), cond := fun r => !(Ty.rustEq .f64 (r 19) (⟨0x0000000000000000#64⟩ : F64)) },
  { cmd := .field 20 (.one 41 .f64), cond := fun r => !(Ty.rustEq .f64 (r 20) (⟨0x0000000000000000#64⟩ : F64)) },
  { cmd := .field 21 (.one 42 .f64), cond := fun r => !(Ty.rustEq .f64 (r 21) (⟨0x0000000000000000#64⟩ : F64)) },
  { cmd := .field 22 (.one 70 .i32AsI16) },
  { cmd := .field 23 (.one 50 .f64) },
  { cmd := .field 24 (.one 71 .i32AsI16), min := (some .r12), cond := fun r => !(Ty.rustEq .i32 (r 24) (0#32 : BitVec 32)) },
  { cmd := .field 25 (.one 72 .i32AsI16), min := (some .r12), cond := fun r => !(Ty.rustEq .i32 (r 25) (0#32 : BitVec 32)) },
  { cmd := .field 26 (.one 73 .i32AsI16), min := (some .r12), cond := fun r => !(Ty.rustEq .i32 (r 26) (0#32 : BitVec 32)) },
  { cmd := .field 27 (.one 74 .i32AsI16), min := (some .r12), cond := fun r => !(Ty.rustEq .i32 (r 27) (0#32 : BitVec 32)) },
  { cmd := .field 28 (.one 91 .i32), min := (some .r2010) }]

/-- Fields of `Wipeout`. -/
def Ent.wipeoutSpec : List Decl := [
  /- 18 class_version -/ ⟨.i32, (0#32 : BitVec 32)⟩,
  /- 19 location -/ ⟨.point, (⟨(⟨0x0000000000000000#64⟩ : F64), (⟨0x0000000000000000#64⟩ : F64), (⟨0x0000000000000000#64⟩ : F64)⟩ : Point)⟩,
  /- 20 u_vector -/ ⟨.point, (⟨(⟨0x3ff0000000000000#64⟩ : F64), (⟨0x0000000000000000#64⟩ : F64), (⟨0x0000000000000000#64⟩ : F64)⟩ : Point)⟩,
  /- 21 v_vector -/ ⟨.point, (⟨(⟨0x0000000000000000#64⟩ : F64), (⟨0x3ff0000000000000#64⟩ : F64), (⟨0x0000000000000000#64⟩ : F64)⟩ : Point)⟩,
  /- 22 image_size -/ ⟨.point, (⟨(⟨0x0000000000000000#64⟩ : F64), (⟨0x0000000000000000#64⟩ : F64), (⟨0x0000000000000000#64⟩ : F64)⟩ : Point)⟩,
  /- 23 image_def_reference -/ ⟨.str, ([] : Str)⟩,
  /- 24 display_options_flags -/ ⟨.i32, (0#32 : BitVec 32)⟩,
  /- 25 use_clipping -/ ⟨.bool, (true : Bool)⟩,
  /- 26 brightness -/ ⟨.i16, (50#16 : BitVec 16)⟩,
  /- 27 contrast -/ ⟨.i16, (50#16 : BitVec 16)⟩,
  /- 28 fade -/ ⟨.i16, (0#16 : BitVec 16)⟩,
  /- 29 image_def_reactor_reference -/ ⟨.str, ([] : Str)⟩,
  /- 30 clipping_type -/ ⟨.enum E.imageClippingBoundaryType, (⟨0, by decide⟩ : Fin (List.length E.imageClippingBoundaryType))⟩,
  /- 31 clipping_vertex_count -/ ⟨.i32, (0#32 : BitVec 32)⟩,
  /- 32 clipping_vertices -/ ⟨.pts false, (⟨[], [], [], []⟩ : PtAcc)⟩,
  /- 33 is_inside_clipping -/ ⟨.bool, (false : Bool)⟩]

/-- Match arms of the reader of `Wipeout`. -/
def Ent.wipeoutArms : List (Arm (commonDecls ++ Ent.wipeoutSpec)) := [
  ⟨90, .on 18 (.set .i32)⟩,
  ⟨10, .on 19 (.axis .x)⟩,
  ⟨20, .on 19 (.axis .y)⟩,
  ⟨30, .on 19 (.axis .z)⟩,
  ⟨11, .on 20 (.axis .x)⟩,
  ⟨21, .on 20 (.axis .y)⟩,
  ⟨31, .on 20 (.axis .z)⟩,
  ⟨12, .on 21 (.axis .x)⟩,
  ⟨22, .on 21 (.axis .y)⟩,
  ⟨32, .on 21 (.axis .z)⟩,
  ⟨13, .on 22 (.axis .x)⟩,
  ⟨23, .on 22 (.axis .y)⟩,
  ⟨340, .on 23 (.set .str)⟩,
  ⟨70, .on 24 (.set .i32OfI16)⟩,
  ⟨280, .on 25 (.set .asBool)⟩,
  ⟨281, .on 26 (.set .i16)⟩,
  ⟨282, .on 27 (.set .i16)⟩,
  ⟨283, .on 28 (.set .i16)⟩,
  ⟨360, .on 29 (.set .str)⟩,
  ⟨71, .on 30 (.set (.enumI16 E.imageClippingBoundaryType ⟨0, by decide⟩))⟩,
  ⟨91, .on 31 (.set .i32)⟩,
  ⟨14, .on 32 (.pushAxis .x)⟩,
  ⟨12, .on 32 (.pushAxis .y)⟩,
  ⟨290, .on 33 (.set .bool)⟩] ++ commonArms Ent.wipeoutSpec

/-- The specific write statements of `Wipeout`. -/
def Ent.wipeoutCmds : List (GCmd (commonDecls ++ Ent.wipeoutSpec)) := [
  { cmd := .const (.newStr 100 str!"AcDbRasterImage") },
  { cmd := .field 18 (.one 90 .i32) },
  { cmd := .field 19 (.axes [(.x, 10), (.y, 20), (.z, 30)]) },
  { cmd := .field 20 (.axes [(.x, 11), (.y, 21), (.z, 31)]) },
  { cmd := .field 21 (.axes [(.x, 12), (.y, 22), (.z, 32)]) },
  { cmd := .field 22 (.axes [(.x, 13), (.y, 23)]) },
  { cmd := .field 23 (.one 340 .str) },
  { cmd := .field 24 (.one 70 .i32AsI16) },
  { cmd := .field 25 (.one 280 .asI16) },
  { cmd := .field 26 (.one 281 .i16) },
  { cmd := .field 27 (.one 282 .i16) },
  { cmd := .field 28 (.one 283 .i16) },
  { cmd := .field 29 (.one 360 .str) },
  { cmd := .field 30 (.one 71 (.enumI16 E.imageClippingBoundaryType)) },
  { cmd := .computed (t := .i32) 91 .i32 (fun r => BitVec.ofNat 32 ((fun a : PtAcc => a.pts.length) (r 32))) },
  { cmd := .field 32 (.points fun | .x => 14 | .y => 24 | .z => 24) },
  { cmd := .field 33 (.one 290 .bool), min := (some .r2010) }]

/-- Fields of `XLine`. -/
def Ent.xLineSpec : List Decl := [
  /- 18 first_point -/ ⟨.point, (⟨(⟨0x0000000000000000#64⟩ : F64), (⟨0x0000000000000000#64⟩ : F64), (⟨0x0000000000000000#64⟩ : F64)⟩ : Point)⟩,
  /- 19 unit_direction_vector -/ ⟨.point, (⟨(⟨0x3ff0000000000000#64⟩ : F64), (⟨0x0000000000000000#64⟩ : F64), (⟨0x0000000000000000#64⟩ : F64)⟩ : Point)⟩]

/-- Match arms of the reader of `XLine`. -/
def Ent.xLineArms : List (Arm (commonDecls ++ Ent.xLineSpec)) := [
  ⟨10, .on 18 (.axis .x)⟩,
  ⟨20, .on 18 (.axis .y)⟩,
  ⟨30, .on 18 (.axis .z)⟩,
  ⟨11, .on 19 (.axis .x)⟩,
  ⟨21, .on 19 (.axis .y)⟩,
  ⟨31, .on 19 (.axis .z)⟩] ++ commonArms Ent.xLineSpec

/-- The specific write statements of `XLine`. -/
def Ent.xLineCmds : List (GCmd (commonDecls ++ Ent.xLineSpec)) := [
  { cmd := .const (.newStr 100 str!"AcDbXline"), min := (some .r13) },
  { cmd := .field 18 (.axes [(.x, 10), (.y, 20), (.z, 30)]) },
  { cmd := .field 19 (.axes [(.x, 11), (.y, 21), (.z, 31)]) }]

/-- Fields of `DimensionBase` and of the five kinds of dimensions together; a kind uses its own ones. -/
def Ent.dimensionSpec : List Decl := [
  /- 18 version -/ ⟨.enum E.version, (⟨0, by decide⟩ : Fin (List.length E.version))⟩,
  /- 19 block_name -/ ⟨.str, (str!"*MODEL_SPACE" : Str)⟩,
  /- 20 definition_point_1 -/ ⟨.point, (⟨(⟨0x0000000000000000#64⟩ : F64), (⟨0x0000000000000000#64⟩ : F64), (⟨0x0000000000000000#64⟩ : F64)⟩ : Point)⟩,
  /- 21 text_mid_point -/ ⟨.point, (⟨(⟨0x0000000000000000#64⟩ : F64), (⟨0x0000000000000000#64⟩ : F64), (⟨0x0000000000000000#64⟩ : F64)⟩ : Point)⟩,
  /- 22 dimension_type -/ ⟨.enum E.dimensionType, (⟨1, by decide⟩ : Fin (List.length E.dimensionType))⟩,
  /- 23 attachment_point -/ ⟨.enum E.attachmentPoint, (⟨0, by decide⟩ : Fin (List.length E.attachmentPoint))⟩,
  /- 24 text_line_spacing_style -/ ⟨.enum E.textLineSpacingStyle, (⟨0, by decide⟩ : Fin (List.length E.textLineSpacingStyle))⟩,
  /- 25 text_line_spacing_factor -/ ⟨.f64, (⟨0x3ff0000000000000#64⟩ : F64)⟩,
  /- 26 actual_measurement -/ ⟨.f64, (⟨0x0000000000000000#64⟩ : F64)⟩,
  /- 27 text -/ ⟨.str, (str!"<>" : Str)⟩,
  /- 28 text_rotation_angle -/ ⟨.f64, (⟨0x0000000000000000#64⟩ : F64)⟩,
  /- 29 horizontal_direction_angle -/ ⟨.f64, (⟨0x0000000000000000#64⟩ : F64)⟩,
  /- 30 normal -/ ⟨.point, (⟨(⟨0x0000000000000000#64⟩ : F64), (⟨0x0000000000000000#64⟩ : F64), (⟨0x3ff0000000000000#64⟩ : F64)⟩ : Point)⟩,
  /- 31 dimension_style_name -/ ⟨.str, (str!"STANDARD" : Str)⟩,
  /- 32 is_block_reference_referenced_by_this_block_only -/ ⟨.bool, (false : Bool)⟩,
  /- 33 is_ordinate_x_type -/ ⟨.bool, (false : Bool)⟩,
  /- 34 is_at_user_defined_location -/ ⟨.bool, (false : Bool)⟩,
  /- 35 insertion_point -/ ⟨.point, (⟨(⟨0x0000000000000000#64⟩ : F64), (⟨0x0000000000000000#64⟩ : F64), (⟨0x0000000000000000#64⟩ : F64)⟩ : Point)⟩,
  /- 36 definition_point_2 -/ ⟨.point, (⟨(⟨0x0000000000000000#64⟩ : F64), (⟨0x0000000000000000#64⟩ : F64), (⟨0x0000000000000000#64⟩ : F64)⟩ : Point)⟩,
  /- 37 definition_point_3 -/ ⟨.point, (⟨(⟨0x0000000000000000#64⟩ : F64), (⟨0x0000000000000000#64⟩ : F64), (⟨0x0000000000000000#64⟩ : F64)⟩ : Point)⟩,
  /- 38 rotation_angle -/ ⟨.f64, (⟨0x0000000000000000#64⟩ : F64)⟩,
  /- 39 extension_line_angle -/ ⟨.f64, (⟨0x0000000000000000#64⟩ : F64)⟩,
  /- 40 leader_length -/ ⟨.f64, (⟨0x0000000000000000#64⟩ : F64)⟩,
  /- 41 definition_point_4 -/ ⟨.point, (⟨(⟨0x0000000000000000#64⟩ : F64), (⟨0x0000000000000000#64⟩ : F64), (⟨0x0000000000000000#64⟩ : F64)⟩ : Point)⟩,
  /- 42 definition_point_5 -/ ⟨.point, (⟨(⟨0x0000000000000000#64⟩ : F64), (⟨0x0000000000000000#64⟩ : F64), (⟨0x0000000000000000#64⟩ : F64)⟩ : Point)⟩]

/-- Models `DimensionBase::set_dimension_type`, src/entity.rs:45-51. -/
def Ent.readDimensionType : Act (commonDecls ++ Ent.dimensionSpec) := .custom [22, 32, 33, 34] fun r p =>
  match p.assertI16 with
  | .error e => .error e
  | .ok v =>
    .ok ((((r.set 32 (decide (v &&& 32#16 = 32#16) : Bool)).set 33 (decide (v &&& 64#16 = 64#16) : Bool)).set
      34 (decide (v &&& 128#16 = 128#16) : Bool)).set 22
        (enumOfInt E.dimensionType ⟨1, by decide⟩ (v &&& 0x0F#16).toInt : Fin (List.length E.dimensionType)))

/-- Models `DimensionBase::dimension_type`, src/entity.rs:52-64. -/
def Ent.dimensionWord (r : Rec (commonDecls ++ Ent.dimensionSpec)) : I16 :=
  let val : I16 := BitVec.ofInt 16 (E.dimensionType.get (r 22))
  let val := bif r 32 then val ||| 32#16 else val
  let val := bif r 33 then val ||| 64#16 else val
  bif r 34 then val ||| 128#16 else val

/-- Match arms for a dimension before its kind is known (src/entity.rs:438-583). -/
def Ent.dimensionBaseArms : List (Arm (commonDecls ++ Ent.dimensionSpec)) := [
  ⟨1, .on 27 (.set .str)⟩,
  ⟨2, .on 19 (.set .str)⟩,
  ⟨3, .on 31 (.set .str)⟩,
  ⟨10, .on 20 (.axis .x)⟩,
  ⟨20, .on 20 (.axis .y)⟩,
  ⟨30, .on 20 (.axis .z)⟩,
  ⟨11, .on 21 (.axis .x)⟩,
  ⟨21, .on 21 (.axis .y)⟩,
  ⟨31, .on 21 (.axis .z)⟩,
  ⟨41, .on 25 (.set .f64)⟩,
  ⟨42, .on 26 (.set .f64)⟩,
  ⟨51, .on 29 (.set .f64)⟩,
  ⟨53, .on 28 (.set .f64)⟩,
  ⟨70, Ent.readDimensionType⟩,
  ⟨71, .on 23 (.set (.enumI16 E.attachmentPoint ⟨0, by decide⟩))⟩,
  ⟨72, .on 24 (.set (.enumI16 E.textLineSpacingStyle ⟨0, by decide⟩))⟩,
  ⟨210, .on 30 (.axis .x)⟩,
  ⟨220, .on 30 (.axis .y)⟩,
  ⟨230, .on 30 (.axis .z)⟩,
  ⟨280, .on 18 (.set (.enumI16 E.version ⟨0, by decide⟩))⟩,
  ⟨100, .on 999 (.set .ignoreStr)⟩]

/-- Arms of `apply_dimension_code_pair` (src/entity.rs:236-380). -/
def Ent.rotatedArms : List (Arm (commonDecls ++ Ent.dimensionSpec)) := [
  ⟨12, .on 35 (.axis .x)⟩,
  ⟨22, .on 35 (.axis .y)⟩,
  ⟨32, .on 35 (.axis .z)⟩,
  ⟨13, .on 36 (.axis .x)⟩,
  ⟨23, .on 36 (.axis .y)⟩,
  ⟨33, .on 36 (.axis .z)⟩,
  ⟨14, .on 37 (.axis .x)⟩,
  ⟨24, .on 37 (.axis .y)⟩,
  ⟨34, .on 37 (.axis .z)⟩,
  ⟨50, .on 38 (.set .f64)⟩,
  ⟨52, .on 39 (.set .f64)⟩]

/-- Arms of `apply_dimension_code_pair` (src/entity.rs:236-380). -/
def Ent.radialArms : List (Arm (commonDecls ++ Ent.dimensionSpec)) := [
  ⟨15, .on 36 (.axis .x)⟩,
  ⟨25, .on 36 (.axis .y)⟩,
  ⟨35, .on 36 (.axis .z)⟩,
  ⟨40, .on 40 (.set .f64)⟩]

/-- Arms of `apply_dimension_code_pair` (src/entity.rs:236-380). -/
def Ent.angularArms : List (Arm (commonDecls ++ Ent.dimensionSpec)) := [
  ⟨13, .on 36 (.axis .x)⟩,
  ⟨23, .on 36 (.axis .y)⟩,
  ⟨33, .on 36 (.axis .z)⟩,
  ⟨14, .on 37 (.axis .x)⟩,
  ⟨24, .on 37 (.axis .y)⟩,
  ⟨34, .on 37 (.axis .z)⟩,
  ⟨15, .on 41 (.axis .x)⟩,
  ⟨25, .on 41 (.axis .y)⟩,
  ⟨35, .on 41 (.axis .z)⟩,
  ⟨16, .on 42 (.axis .x)⟩,
  ⟨26, .on 42 (.axis .y)⟩,
  ⟨36, .on 42 (.axis .z)⟩]

/-- Arms of `apply_dimension_code_pair` (src/entity.rs:236-380). -/
def Ent.ordinateArms : List (Arm (commonDecls ++ Ent.dimensionSpec)) := [
  ⟨13, .on 36 (.axis .x)⟩,
  ⟨23, .on 36 (.axis .y)⟩,
  ⟨33, .on 36 (.axis .z)⟩,
  ⟨14, .on 37 (.axis .x)⟩,
  ⟨24, .on 37 (.axis .y)⟩,
  ⟨34, .on 37 (.axis .z)⟩]

/-- Match arms for a dimension: `n` is 0 before the kind is known, then 1 rotated, 2 radial,
3 diameter, 4 angular, 5 ordinate. -/
def Ent.dimensionArms (n : Nat) : List (Arm (commonDecls ++ Ent.dimensionSpec)) :=
  (match n with
    | 0 => Ent.dimensionBaseArms
    | 1 => Ent.rotatedArms
    | 2 => Ent.radialArms
    | 3 => Ent.radialArms
    | 4 => Ent.angularArms
    | 5 => Ent.ordinateArms
    | _ => []) ++ commonArms Ent.dimensionSpec

/-- The statements of `DimensionBase::add_code_pairs`. -/
def Ent.dimensionBaseCmds : List (GCmd (commonDecls ++ Ent.dimensionSpec)) := [
  { cmd := .const (.newStr 100 str!"AcDbDimension"), min := (some .r13) },
  { cmd := .field 18 (.one 280 (.enumI16 E.version)), min := (some .r2010) },
  { cmd := .field 19 (.one 2 .str) },
  { cmd := .field 20 (.axes [(.x, 10), (.y, 20), (.z, 30)]) },
  { cmd := .field 21 (.axes [(.x, 11), (.y, 21), (.z, 31)]) },
  { cmd := .computed (t := .i16) 70 .i16 Ent.dimensionWord },
  { cmd := .field 23 (.one 71 (.enumI16 E.attachmentPoint)), min := (some .r2000) },
  { cmd := .field 24 (.one 72 (.enumI16 E.textLineSpacingStyle)), min := (some .r2000), cond := fun r => !(Ty.rustEq (.enum E.textLineSpacingStyle) (r 24) (⟨0, by decide⟩ : Fin (List.length E.textLineSpacingStyle))) },
  { cmd := .field 25 (.one 41 .f64), min := (some .r2000), cond := fun r => !(Ty.rustEq .f64 (r 25) (⟨0x3ff0000000000000#64⟩ : F64)) },
  { cmd := .field 26 (.one 42 .f64), min := (some .r2000), cond := fun r => !(Ty.rustEq .f64 (r 26) (⟨0x0000000000000000#64⟩ : F64)) },
  { cmd := .field 27 (.one 1 .str) },
  { cmd := .field 28 (.one 53 .f64), cond := fun r => !(Ty.rustEq .f64 (r 28) (⟨0x0000000000000000#64⟩ : F64)) },
  { cmd := .field 29 (.one 51 .f64), cond := fun r => !(Ty.rustEq .f64 (r 29) (⟨0x0000000000000000#64⟩ : F64)) },
  { cmd := .field 30 (.axes [(.x, 210), (.y, 220), (.z, 230)]), cond := fun r => !(Ty.rustEq .point (r 30) (⟨(⟨0x0000000000000000#64⟩ : F64), (⟨0x0000000000000000#64⟩ : F64), (⟨0x3ff0000000000000#64⟩ : F64)⟩ : Point)) },
  { cmd := .field 31 (.one 3 .str), min := (some .r12) }]

/-- The statements of `add_custom_code_pairs_*dimension`, src/entity.rs:1342-1430. -/
def Ent.dimensionCmds (n : Nat) : List (GCmd (commonDecls ++ Ent.dimensionSpec)) :=
  Ent.dimensionBaseCmds ++ match n with
    | 1 => [
      { cmd := .const (.newStr 100 str!"AcDbAlignedDimension"), min := (some .r13) },
      { cmd := .field 35 (.axes [(.x, 12), (.y, 22), (.z, 32)]) },
      { cmd := .field 36 (.axes [(.x, 13), (.y, 23), (.z, 33)]) },
      { cmd := .field 37 (.axes [(.x, 14), (.y, 24), (.z, 34)]) },
      { cmd := .field 38 (.one 50 .f64) },
      { cmd := .field 39 (.one 52 .f64) },
      { cmd := .const (.newStr 100 str!"AcDbRotatedDimension"), min := (some .r13) }]
    | 2 => [
      { cmd := .const (.newStr 100 str!"AcDbRadialDimension") },
      { cmd := .field 36 (.axes [(.x, 15), (.y, 25), (.z, 35)]) },
      { cmd := .field 40 (.one 40 .f64) }]
    | 3 => [
      { cmd := .const (.newStr 100 str!"AcDbDiametricDimension") },
      { cmd := .field 36 (.axes [(.x, 15), (.y, 25), (.z, 35)]) },
      { cmd := .field 40 (.one 40 .f64) }]
    | 4 => [
      { cmd := .const (.newStr 100 str!"AcDb3PointAngularDimension") },
      { cmd := .field 36 (.axes [(.x, 13), (.y, 23), (.z, 33)]) },
      { cmd := .field 37 (.axes [(.x, 14), (.y, 24), (.z, 34)]) },
      { cmd := .field 41 (.axes [(.x, 15), (.y, 25), (.z, 35)]) },
      { cmd := .field 42 (.axes [(.x, 16), (.y, 26), (.z, 36)]) }]
    | 5 => [
      { cmd := .const (.newStr 100 str!"AcDbOrdinateDimension") },
      { cmd := .field 36 (.axes [(.x, 13), (.y, 23), (.z, 33)]) },
      { cmd := .field 37 (.axes [(.x, 14), (.y, 24), (.z, 34)]) }]
    | _ => []

end Dxf
