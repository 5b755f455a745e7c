import Verif.Model.Record
import Verif.Model.Encoding
import Verif.Data.Enums

/-! Generated from spec/ObjectsSpec.xml by tools/gen_specs.py; do not edit. -/

set_option maxRecDepth 4000

namespace Dxf

/-- Fields of `ObjectCommon` without `extension_data_groups` and `x_data`. -/
def objectDecls : List Decl := [
  /- 0 handle -/ ⟨.handle, (0#64 : Handle)⟩,
  /- 1 __owner_handle -/ ⟨.handle, (0#64 : Handle)⟩]

/-- The local variables of the hand-written readers that decide what a code means: see `OName.next`. -/
structure OMode where
  a : Bool
  seen : List Int
  deriving DecidableEq, Repr

section
variable (ds : List Decl)

/-- Match arms of `ObjectCommon::apply_individual_pair` (build/object_generator.rs:158-199). -/
def objectArms : List (Arm (objectDecls ++ ds)) := [
  ⟨5, .on 0 (.set .handle)⟩,
  ⟨330, .on 1 (.set .handle)⟩]

/-- The statement for the handle, before the extension groups (build/object_generator.rs:201-212). -/
def objectHead : List (GCmd (objectDecls ++ ds)) := [
  { cmd := .field 0 (.one 5 .handle) }]

/-- The statement for the owner, after the extension groups. -/
def objectCmds : List (GCmd (objectDecls ++ ds)) := [
  { cmd := .field 1 (.one 330 .handle), cond := fun r => !(Ty.rustEq .handle (r 1) (0#64 : Handle)) }]

end

/-- Fields of `AcadProxyObject`. -/
def Obj.acadProxyObjectSpec : List Decl := [
  /- 2 proxy_object_class_id -/ ⟨.i32, (499#32 : BitVec 32)⟩,
  /- 3 application_object_class_id -/ ⟨.i32, (500#32 : BitVec 32)⟩,
  /- 4 size_in_bits -/ ⟨.i32, (0#32 : BitVec 32)⟩,
  /- 5 binary_object_data -/ ⟨.list .bytes, ([] : List (List Byte))⟩,
  /- 6 object_ids -/ ⟨.list .str, ([] : List (Str))⟩,
  /- 7 __object_ids_a -/ ⟨.list .str, ([] : List (Str))⟩,
  /- 8 __object_ids_b -/ ⟨.list .str, ([] : List (Str))⟩,
  /- 9 __object_ids_c -/ ⟨.list .str, ([] : List (Str))⟩,
  /- 10 __object_ids_d -/ ⟨.list .str, ([] : List (Str))⟩,
  /- 11 __object_drawing_format -/ ⟨.i32, (0#32 : BitVec 32)⟩,
  /- 12 is_original_object_format -/ ⟨.bool, (false : Bool)⟩]

/-- Match arms of the reader of `AcadProxyObject`. -/
def Obj.acadProxyObjectArms : List (Arm (objectDecls ++ Obj.acadProxyObjectSpec)) := [
  ⟨90, .on 2 (.set .i32)⟩,
  ⟨91, .on 3 (.set .i32)⟩,
  ⟨93, .on 4 (.set .i32)⟩,
  ⟨310, .on 5 (.push .bytes)⟩,
  ⟨330, .on 7 (.push .str)⟩,
  ⟨340, .on 8 (.push .str)⟩,
  ⟨350, .on 9 (.push .str)⟩,
  ⟨360, .on 10 (.push .str)⟩,
  ⟨95, .on 11 (.set .i32)⟩,
  ⟨70, .on 12 (.set .asBool)⟩] ++ objectArms Obj.acadProxyObjectSpec

/-- The specific write statements of `AcadProxyObject`. -/
def Obj.acadProxyObjectCmds : List (GCmd (objectDecls ++ Obj.acadProxyObjectSpec)) := [
  { cmd := .const (.newStr 100 str!"AcDbProxyObject"), min := (some .r13) },
  { cmd := .field 2 (.one 90 .i32) },
  { cmd := .field 3 (.one 91 .i32) },
  { cmd := .field 4 (.one 93 .i32) },
  { cmd := .field 5 (.many 310 .bytes) },
  { cmd := .field 6 (.many 330 .str) },
  { cmd := .const (.newI32 94 0#32) },
  { cmd := .field 11 (.one 95 .i32) },
  { cmd := .field 12 (.one 70 .asI16) }]

/-- Fields of `DictionaryWithDefault`. -/
def Obj.dictionaryWithDefaultSpec : List Decl := [
  /- 2 duplicate_record_handling -/ ⟨.enum E.dictionaryDuplicateRecordHandling, (⟨0, by decide⟩ : Fin (List.length E.dictionaryDuplicateRecordHandling))⟩,
  /- 3 default_handle -/ ⟨.handle, (0#64 : Handle)⟩]

/-- Match arms of the hand-written reader of `DictionaryWithDefault` (src/object.rs:478-). -/
def Obj.dictionaryWithDefaultArms : List (Arm (objectDecls ++ Obj.dictionaryWithDefaultSpec)) := [
  ⟨281, .on 2 (.set (.enumI16 E.dictionaryDuplicateRecordHandling ⟨0, by decide⟩))⟩,
  ⟨340, .on 3 (.set .handle)⟩] ++ objectArms Obj.dictionaryWithDefaultSpec

/-- The specific write statements of `DictionaryWithDefault`. -/
def Obj.dictionaryWithDefaultCmds : List (GCmd (objectDecls ++ Obj.dictionaryWithDefaultSpec)) := [
  { cmd := .const (.newStr 100 str!"AcDbDictionary") },
  { cmd := .field 2 (.one 281 (.enumI16 E.dictionaryDuplicateRecordHandling)), min := (some .r2000) },
  { cmd := .field 3 (.one 340 .handle) }]

/-- `PlaceHolder` has no fields. -/
def Obj.placeHolderSpec : List Decl := []

/-- Match arms of the reader of `PlaceHolder`. -/
def Obj.placeHolderArms : List (Arm (objectDecls ++ Obj.placeHolderSpec)) := objectArms Obj.placeHolderSpec

/-- `PlaceHolder` writes nothing specific. -/
def Obj.placeHolderCmds : List (GCmd (objectDecls ++ Obj.placeHolderSpec)) := []

/-- Fields of `NavisWorksModelDefinition`. -/
def Obj.navisWorksModelDefinitionSpec : List Decl := [
  /- 2 model_path -/ ⟨.str, ([] : Str)⟩,
  /- 3 is_model_loaded_on_drawing_open -/ ⟨.bool, (false : Bool)⟩,
  /- 4 minimum_extent -/ ⟨.point, (⟨(⟨0x0000000000000000#64⟩ : F64), (⟨0x0000000000000000#64⟩ : F64), (⟨0x0000000000000000#64⟩ : F64)⟩ : Point)⟩,
  /- 5 maximum_extent -/ ⟨.point, (⟨(⟨0x0000000000000000#64⟩ : F64), (⟨0x0000000000000000#64⟩ : F64), (⟨0x0000000000000000#64⟩ : F64)⟩ : Point)⟩,
  /- 6 is_host_geometry_drawn -/ ⟨.bool, (false : Bool)⟩]

/-- Match arms of the reader of `NavisWorksModelDefinition`. -/
def Obj.navisWorksModelDefinitionArms : List (Arm (objectDecls ++ Obj.navisWorksModelDefinitionSpec)) := [
  ⟨1, .on 2 (.set .str)⟩,
  ⟨290, .on 3 (.set .bool)⟩,
  ⟨10, .on 4 (.axis .x)⟩,
  ⟨20, .on 4 (.axis .y)⟩,
  ⟨30, .on 4 (.axis .z)⟩,
  ⟨11, .on 5 (.axis .x)⟩,
  ⟨21, .on 5 (.axis .y)⟩,
  ⟨31, .on 5 (.axis .z)⟩] ++ objectArms Obj.navisWorksModelDefinitionSpec

/-- The specific write statements of `NavisWorksModelDefinition`. -/
def Obj.navisWorksModelDefinitionCmds : List (GCmd (objectDecls ++ Obj.navisWorksModelDefinitionSpec)) := [
  { cmd := .const (.newStr 100 str!"AcDbNavisworksModelDef") },
  { cmd := .field 2 (.one 1 .str) },
  { cmd := .field 3 (.one 290 .bool) },
  { cmd := .field 4 (.axes [(.x, 10), (.y, 20), (.z, 30)]) },
  { cmd := .field 5 (.axes [(.x, 11), (.y, 21), (.z, 31)]) },
  { cmd := .field 6 (.one 290 .bool) }]

/-- Fields of `DataTable`. -/
def Obj.dataTableSpec : List Decl := [
  /- 2 field -/ ⟨.i16, (0#16 : BitVec 16)⟩]

/-- Match arms of the hand-written reader of `DataTable` (src/object.rs:316-). -/
def Obj.dataTableArms : List (Arm (objectDecls ++ Obj.dataTableSpec)) := [
  ⟨70, .on 2 (.set .i16)⟩] ++ objectArms Obj.dataTableSpec

/-- The specific write statements of `DataTable`. -/
def Obj.dataTableCmds : List (GCmd (objectDecls ++ Obj.dataTableSpec)) := [
  { cmd := .const (.newStr 100 str!"AcDbDataTable") },
  { cmd := .field 2 (.one 70 .i16) }]

/-- Fields of `Dictionary`. -/
def Obj.dictionarySpec : List Decl := [
  /- 2 is_hard_owner -/ ⟨.bool, (false : Bool)⟩,
  /- 3 duplicate_record_handling -/ ⟨.enum E.dictionaryDuplicateRecordHandling, (⟨0, by decide⟩ : Fin (List.length E.dictionaryDuplicateRecordHandling))⟩]

/-- Match arms of the hand-written reader of `Dictionary` (src/object.rs:445-). -/
def Obj.dictionaryArms : List (Arm (objectDecls ++ Obj.dictionarySpec)) := [
  ⟨280, .on 2 (.set .asBool)⟩,
  ⟨281, .on 3 (.set (.enumI16 E.dictionaryDuplicateRecordHandling ⟨0, by decide⟩))⟩] ++ objectArms Obj.dictionarySpec

/-- The specific write statements of `Dictionary`. -/
def Obj.dictionaryCmds : List (GCmd (objectDecls ++ Obj.dictionarySpec)) := [
  { cmd := .const (.newStr 100 str!"AcDbDictionary") },
  { cmd := .field 2 (.one 280 .asI16), min := (some .r2000), cond := fun r => !(r 2 : Bool) },
  { cmd := .field 3 (.one 281 (.enumI16 E.dictionaryDuplicateRecordHandling)), min := (some .r2000) }]

/-- Fields of `DictionaryVariable`. -/
def Obj.dictionaryVariableSpec : List Decl := [
  /- 2 object_schema_number -/ ⟨.i16, (0#16 : BitVec 16)⟩,
  /- 3 value -/ ⟨.str, ([] : Str)⟩]

/-- Match arms of the reader of `DictionaryVariable`. -/
def Obj.dictionaryVariableArms : List (Arm (objectDecls ++ Obj.dictionaryVariableSpec)) := [
  ⟨280, .on 2 (.set .i16)⟩,
  ⟨1, .on 3 (.set .str)⟩] ++ objectArms Obj.dictionaryVariableSpec

/-- The specific write statements of `DictionaryVariable`. -/
def Obj.dictionaryVariableCmds : List (GCmd (objectDecls ++ Obj.dictionaryVariableSpec)) := [
  { cmd := .const (.newStr 100 str!"DictionaryVariables") },
  { cmd := .field 2 (.one 280 .i16) },
  { cmd := .field 3 (.one 1 .str) }]

/-- Fields of `DimensionAssoc`. -/
def Obj.dimensionAssocSpec : List Decl := [
  /- 2 __dimension_handle -/ ⟨.handle, (0#64 : Handle)⟩,
  /- 3 associativity_flags -/ ⟨.i32, (0#32 : BitVec 32)⟩,
  /- 4 is_trans_space -/ ⟨.bool, (true : Bool)⟩,
  /- 5 rotated_dimension_type -/ ⟨.enum E.rotatedDimensionType, (⟨0, by decide⟩ : Fin (List.length E.rotatedDimensionType))⟩,
  /- 6 class_name -/ ⟨.str, (str!"AcDbOsnapPointRef" : Str)⟩,
  /- 7 object_osnap_type -/ ⟨.enum E.objectOsnapType, (⟨0, by decide⟩ : Fin (List.length E.objectOsnapType))⟩,
  /- 8 __main_object_handle -/ ⟨.handle, (0#64 : Handle)⟩,
  /- 9 main_object_subentity_type -/ ⟨.enum E.subentityType, (⟨0, by decide⟩ : Fin (List.length E.subentityType))⟩,
  /- 10 main_object_gs_marker_index -/ ⟨.i32, (0#32 : BitVec 32)⟩,
  /- 11 __main_object_xref_handle -/ ⟨.handle, (0#64 : Handle)⟩,
  /- 12 near_osnap_geometry_parameter -/ ⟨.f64, (⟨0x0000000000000000#64⟩ : F64)⟩,
  /- 13 osnap_point -/ ⟨.point, (⟨(⟨0x0000000000000000#64⟩ : F64), (⟨0x0000000000000000#64⟩ : F64), (⟨0x0000000000000000#64⟩ : F64)⟩ : Point)⟩,
  /- 14 __intersection_object_handle -/ ⟨.handle, (0#64 : Handle)⟩,
  /- 15 intersection_subentity_type -/ ⟨.enum E.subentityType, (⟨0, by decide⟩ : Fin (List.length E.subentityType))⟩,
  /- 16 intersection_object_gs_marker_index -/ ⟨.i32, (0#32 : BitVec 32)⟩,
  /- 17 __insertion_object_xref_handle -/ ⟨.handle, (0#64 : Handle)⟩,
  /- 18 has_last_point_reference -/ ⟨.bool, (false : Bool)⟩]

/-- Match arms of the reader of `DimensionAssoc`. -/
def Obj.dimensionAssocArms : List (Arm (objectDecls ++ Obj.dimensionAssocSpec)) := [
  ⟨330, .on 2 (.set .handle)⟩,
  ⟨90, .on 3 (.set .i32)⟩,
  ⟨70, .on 4 (.set .asBool)⟩,
  ⟨71, .on 5 (.set (.enumI16 E.rotatedDimensionType ⟨0, by decide⟩))⟩,
  ⟨1, .on 6 (.set .str)⟩,
  ⟨72, .on 7 (.set (.enumI16 E.objectOsnapType ⟨0, by decide⟩))⟩,
  ⟨331, .on 8 (.set .handle)⟩,
  ⟨73, .on 9 (.set (.enumI16 E.subentityType ⟨0, by decide⟩))⟩,
  ⟨91, .on 10 (.set .i32)⟩,
  ⟨301, .on 11 (.set .handle)⟩,
  ⟨40, .on 12 (.set .f64)⟩,
  ⟨10, .on 13 (.axis .x)⟩,
  ⟨20, .on 13 (.axis .y)⟩,
  ⟨30, .on 13 (.axis .z)⟩,
  ⟨332, .on 14 (.set .handle)⟩,
  ⟨74, .on 15 (.set (.enumI16 E.subentityType ⟨0, by decide⟩))⟩,
  ⟨92, .on 16 (.set .i32)⟩,
  ⟨302, .on 17 (.set .handle)⟩,
  ⟨75, .on 18 (.set .asBool)⟩] ++ objectArms Obj.dimensionAssocSpec

/-- The specific write statements of `DimensionAssoc`. -/
def Obj.dimensionAssocCmds : List (GCmd (objectDecls ++ Obj.dimensionAssocSpec)) := [
  { cmd := .const (.newStr 100 str!"AcDbDimAssoc") },
  { cmd := .field 2 (.one 330 .handle) },
  { cmd := .field 3 (.one 90 .i32) },
  { cmd := .field 4 (.one 70 .asI16) },
  { cmd := .field 5 (.one 71 (.enumI16 E.rotatedDimensionType)) },
  { cmd := .field 6 (.one 1 .str) },
  { cmd := .field 7 (.one 72 (.enumI16 E.objectOsnapType)) },
  { cmd := .field 8 (.one 331 .handle) },
  { cmd := .field 9 (.one 73 (.enumI16 E.subentityType)) },
  { cmd := .field 10 (.one 91 .i32) },
  { cmd := .field 11 (.one 301 .handle) },
  { cmd := .field 12 (.one 40 .f64) },
  { cmd := .field 13 (.axes [(.x, 10), (.y, 20), (.z, 30)]) },
  { cmd := .field 14 (.one 332 .handle) },
  { cmd := .field 15 (.one 74 (.enumI16 E.subentityType)) },
  { cmd := .field 16 (.one 92 .i32) },
  { cmd := .field 17 (.one 302 .handle) },
  { cmd := .field 18 (.one 75 .asI16) }]

/-- Fields of `Field`. -/
def Obj.fieldSpec : List Decl := [
  /- 2 evaluator_id -/ ⟨.str, ([] : Str)⟩,
  /- 3 field_code_string -/ ⟨.str, ([] : Str)⟩,
  /- 4 field_code_string_overflow -/ ⟨.str, ([] : Str)⟩,
  /- 5 __format_string -/ ⟨.str, ([] : Str)⟩,
  /- 6 evaluation_error_message -/ ⟨.str, ([] : Str)⟩,
  /- 7 __child_field_count -/ ⟨.i32, (0#32 : BitVec 32)⟩,
  /- 8 __child_fields_handle -/ ⟨.list .handle, ([] : List (Handle))⟩,
  /- 9 evaluation_option -/ ⟨.i32, (0#32 : BitVec 32)⟩,
  /- 10 filling_option -/ ⟨.i32, (0#32 : BitVec 32)⟩,
  /- 11 field_state -/ ⟨.i32, (0#32 : BitVec 32)⟩,
  /- 12 evaluation_status -/ ⟨.i32, (0#32 : BitVec 32)⟩,
  /- 13 evaluation_error_code -/ ⟨.i32, (0#32 : BitVec 32)⟩,
  /- 14 __object_id_count -/ ⟨.i32, (0#32 : BitVec 32)⟩,
  /- 15 __objects_handle -/ ⟨.list .handle, ([] : List (Handle))⟩,
  /- 16 __data_set_count -/ ⟨.i32, (0#32 : BitVec 32)⟩,
  /- 17 field_data_keys -/ ⟨.list .str, ([] : List (Str))⟩,
  /- 18 evaluated_cache_key -/ ⟨.str, (str!"ACFD_FIELD_VALUE" : Str)⟩,
  /- 19 __value_type_code -/ ⟨.i32, (0#32 : BitVec 32)⟩,
  /- 20 __long_value -/ ⟨.i32, (0#32 : BitVec 32)⟩,
  /- 21 __double_value -/ ⟨.f64, (⟨0x0000000000000000#64⟩ : F64)⟩,
  /- 22 __id_value -/ ⟨.handle, (0#64 : Handle)⟩,
  /- 23 __binary_data_buffer_size -/ ⟨.i32, (0#32 : BitVec 32)⟩,
  /- 24 __binary_data -/ ⟨.bytes, ([] : List Byte)⟩,
  /- 25 __format_string_code301 -/ ⟨.str, ([] : Str)⟩,
  /- 26 __format_string_overflow -/ ⟨.str, ([] : Str)⟩,
  /- 27 __format_string_length -/ ⟨.i32, (0#32 : BitVec 32)⟩,
  /- 28 __child_field_count_value_type_code -/ ⟨.list .i32, ([] : List (I32))⟩]

/-- Match arms of the reader of `Field`. -/
def Obj.fieldArms : List (Arm (objectDecls ++ Obj.fieldSpec)) := [
  ⟨1, .on 2 (.set .str)⟩,
  ⟨2, .on 3 (.set .str)⟩,
  ⟨3, .on 4 (.set .str)⟩,
  ⟨4, .on 5 (.set .str)⟩,
  ⟨300, .on 6 (.set .str)⟩,
  ⟨90, .on 7 (.set .i32)⟩,
  ⟨360, .on 8 (.push .handle)⟩,
  ⟨91, .on 9 (.set .i32)⟩,
  ⟨92, .on 10 (.set .i32)⟩,
  ⟨94, .on 11 (.set .i32)⟩,
  ⟨95, .on 12 (.set .i32)⟩,
  ⟨96, .on 13 (.set .i32)⟩,
  ⟨97, .on 14 (.set .i32)⟩,
  ⟨331, .on 15 (.push .handle)⟩,
  ⟨93, .on 16 (.set .i32)⟩,
  ⟨6, .on 17 (.push .str)⟩,
  ⟨7, .on 18 (.set .str)⟩,
  ⟨140, .on 21 (.set .f64)⟩,
  ⟨330, .on 22 (.set .handle)⟩,
  ⟨310, .on 24 (.set .bytes)⟩,
  ⟨301, .on 25 (.set .str)⟩,
  ⟨9, .on 26 (.set .str)⟩,
  ⟨98, .on 27 (.set .i32)⟩] ++ objectArms Obj.fieldSpec

/-- The specific write statements of `Field`. -/
def Obj.fieldCmds : List (GCmd (objectDecls ++ Obj.fieldSpec)) := [
  { cmd := .field 2 (.one 1 .str) },
  { cmd := .field 3 (.one 2 .str) },
  { cmd := .field 4 (.one 3 .str) },
  { cmd := .field 5 (.one 4 .str), max := (some .r2007) },
  { cmd := .field 6 (.one 300 .str), max := (some .r2007) },
  { cmd := .computed (t := .i32) 90 .i32 (fun r => BitVec.ofNat 32 ((fun a : List Handle => a.length) (r 8))) },
  { cmd := .field 8 (.many 360 .handle) },
  { cmd := .field 9 (.one 91 .i32), max := (some .r2007) },
  { cmd := .field 10 (.one 92 .i32), max := (some .r2007) },
  { cmd := .field 11 (.one 94 .i32), max := (some .r2007) },
  { cmd := .field 12 (.one 95 .i32), max := (some .r2007) },
  { cmd := .field 13 (.one 96 .i32), max := (some .r2007) },
  { cmd := .computed (t := .i32) 97 .i32 (fun r => BitVec.ofNat 32 ((fun a : List Handle => a.length) (r 15))) },
  { cmd := .field 15 (.many 330 .handle), max := (some .r2007) },
  { cmd := .field 15 (.many 331 .handle), min := (some .r2010) },
  { cmd := .computed (t := .i32) 93 .i32 (fun r => BitVec.ofNat 32 ((fun a : List Str => a.length) (r 17))) },
  { cmd := .field 17 (.many 6 .str) },
  { cmd := .field 18 (.one 7 .str) },
  { cmd := .field 19 (.one 90 .i32) },
  { cmd := .field 5 (.one 301 .str), min := (some .r2010) },
  { cmd := .field 26 (.one 9 .str) },
  { cmd := .computed (t := .i32) 98 .i32 (fun r => BitVec.ofNat 32 (utf8Encode (r 5)).length) }]

/-- Fields of `GeoData`. -/
def Obj.geoDataSpec : List Decl := [
  /- 2 version -/ ⟨.enum E.geoDataVersion, (⟨0, by decide⟩ : Fin (List.length E.geoDataVersion))⟩,
  /- 3 coordinate_type -/ ⟨.enum E.designCoordinateType, (⟨0, by decide⟩ : Fin (List.length E.designCoordinateType))⟩,
  /- 4 design_point -/ ⟨.point, (⟨(⟨0x0000000000000000#64⟩ : F64), (⟨0x0000000000000000#64⟩ : F64), (⟨0x0000000000000000#64⟩ : F64)⟩ : Point)⟩,
  /- 5 reference_point -/ ⟨.point, (⟨(⟨0x0000000000000000#64⟩ : F64), (⟨0x0000000000000000#64⟩ : F64), (⟨0x0000000000000000#64⟩ : F64)⟩ : Point)⟩,
  /- 6 north_vector -/ ⟨.point, (⟨(⟨0x0000000000000000#64⟩ : F64), (⟨0x0000000000000000#64⟩ : F64), (⟨0x3ff0000000000000#64⟩ : F64)⟩ : Point)⟩,
  /- 7 horizontal_unit_scale -/ ⟨.f64, (⟨0x3ff0000000000000#64⟩ : F64)⟩,
  /- 8 vertical_unit_scale -/ ⟨.f64, (⟨0x3ff0000000000000#64⟩ : F64)⟩,
  /- 9 horizontal_units -/ ⟨.enum E.units, (⟨0, by decide⟩ : Fin (List.length E.units))⟩,
  /- 10 vertical_units -/ ⟨.enum E.units, (⟨0, by decide⟩ : Fin (List.length E.units))⟩,
  /- 11 up_direction -/ ⟨.point, (⟨(⟨0x0000000000000000#64⟩ : F64), (⟨0x0000000000000000#64⟩ : F64), (⟨0x3ff0000000000000#64⟩ : F64)⟩ : Point)⟩,
  /- 12 scale_estimation_method -/ ⟨.enum E.scaleEstimationMethod, (⟨0, by decide⟩ : Fin (List.length E.scaleEstimationMethod))⟩,
  /- 13 use_sea_level_correction -/ ⟨.bool, (false : Bool)⟩,
  /- 14 user_specified_scale_factor -/ ⟨.f64, (⟨0x3ff0000000000000#64⟩ : F64)⟩,
  /- 15 sea_level_elevation -/ ⟨.f64, (⟨0x0000000000000000#64⟩ : F64)⟩,
  /- 16 coordinate_projection_radius -/ ⟨.f64, (⟨0x0000000000000000#64⟩ : F64)⟩,
  /- 17 coordinate_system_definition -/ ⟨.str, ([] : Str)⟩,
  /- 18 geo_rss_tag -/ ⟨.str, ([] : Str)⟩,
  /- 19 observation_from_tag -/ ⟨.str, ([] : Str)⟩,
  /- 20 observation_to_tag -/ ⟨.str, ([] : Str)⟩,
  /- 21 observation_coverage_tag -/ ⟨.str, ([] : Str)⟩,
  /- 22 __geo_mesh_point_count -/ ⟨.i32, (0#32 : BitVec 32)⟩,
  /- 23 __source_mesh_x_points -/ ⟨.list .f64, ([] : List (F64))⟩,
  /- 24 __source_mesh_y_points -/ ⟨.list .f64, ([] : List (F64))⟩,
  /- 25 __destination_mesh_x_points -/ ⟨.list .f64, ([] : List (F64))⟩,
  /- 26 __destination_mesh_y_points -/ ⟨.list .f64, ([] : List (F64))⟩,
  /- 27 __faces_count -/ ⟨.i32, (0#32 : BitVec 32)⟩,
  /- 28 __face_point_index_x -/ ⟨.list .f64, ([] : List (F64))⟩,
  /- 29 __face_point_index_y -/ ⟨.list .f64, ([] : List (F64))⟩,
  /- 30 __face_point_index_z -/ ⟨.list .f64, ([] : List (F64))⟩]

/-- Match arms of the reader of `GeoData`. -/
def Obj.geoDataArms : List (Arm (objectDecls ++ Obj.geoDataSpec)) := [
  ⟨90, .on 2 (.set (.enumI32 E.geoDataVersion ⟨0, by decide⟩))⟩,
  ⟨70, .on 3 (.set (.enumI16 E.designCoordinateType ⟨0, by decide⟩))⟩,
  ⟨10, .on 4 (.axis .x)⟩,
  ⟨20, .on 4 (.axis .y)⟩,
  ⟨30, .on 4 (.axis .z)⟩,
  ⟨11, .on 5 (.axis .x)⟩,
  ⟨21, .on 5 (.axis .y)⟩,
  ⟨31, .on 5 (.axis .z)⟩,
  ⟨12, .on 6 (.axis .x)⟩,
  ⟨22, .on 6 (.axis .y)⟩,
  ⟨40, .on 7 (.set .f64)⟩,
  ⟨41, .on 8 (.set .f64)⟩,
  ⟨91, .on 9 (.set (.enumI32 E.units ⟨0, by decide⟩))⟩,
  ⟨92, .on 10 (.set (.enumI32 E.units ⟨0, by decide⟩))⟩,
  ⟨210, .on 11 (.axis .x)⟩,
  ⟨220, .on 11 (.axis .y)⟩,
  ⟨230, .on 11 (.axis .z)⟩,
  ⟨95, .on 12 (.set (.enumI32 E.scaleEstimationMethod ⟨0, by decide⟩))⟩,
  ⟨294, .on 13 (.set .bool)⟩,
  ⟨141, .on 14 (.set .f64)⟩,
  ⟨142, .on 15 (.set .f64)⟩,
  ⟨143, .on 16 (.set .f64)⟩,
  ⟨301, .on 17 (.set .str)⟩,
  ⟨302, .on 18 (.set .str)⟩,
  ⟨305, .on 19 (.set .str)⟩,
  ⟨306, .on 20 (.set .str)⟩,
  ⟨307, .on 21 (.set .str)⟩,
  ⟨93, .on 22 (.set .i32)⟩,
  ⟨13, .on 23 (.push .f64)⟩,
  ⟨23, .on 24 (.push .f64)⟩,
  ⟨14, .on 25 (.push .f64)⟩,
  ⟨24, .on 26 (.push .f64)⟩,
  ⟨96, .on 27 (.set .i32)⟩,
  ⟨97, .on 28 (.push .f64OfI32)⟩,
  ⟨98, .on 29 (.push .f64OfI32)⟩,
  ⟨99, .on 30 (.push .f64OfI32)⟩] ++ objectArms Obj.geoDataSpec

/-- The specific write statements of `GeoData`. -/
def Obj.geoDataCmds : List (GCmd (objectDecls ++ Obj.geoDataSpec)) := [
  { cmd := .field 2 (.one 90 (.enumI32 E.geoDataVersion)) },
  { cmd := .field 3 (.one 70 (.enumI16 E.designCoordinateType)) },
  { cmd := .field 4 (.axes [(.x, 10), (.y, 20), (.z, 30)]) },
  { cmd := .field 5 (.axes [(.x, 11), (.y, 21), (.z, 31)]) },
  { cmd := .field 6 (.axes [(.x, 12), (.y, 22)]) },
  { cmd := .field 7 (.one 40 .f64) },
  { cmd := .field 8 (.one 41 .f64) },
  { cmd := .field 9 (.one 91 (.enumI32 E.units)) },
  { cmd := .field 10 (.one 92 (.enumI32 E.units)) },
  { cmd := .field 11 (.axes [(.x, 210), (.y, 220), (.z, 230)]) },
  { cmd := .field 12 (.one 95 (.enumI32 E.scaleEstimationMethod)) },
  { cmd := .field 13 (.one 294 .bool) },
  { cmd := .field 14 (.one 141 .f64) },
  { cmd := .field 15 (.one 142 .f64) },
  { cmd := .field 16 (.one 143 .f64) },
  { cmd := .field 17 (.one 301 .str) },
  { cmd := .field 18 (.one 302 .str) },
  { cmd := .field 19 (.one 305 .str) },
  { cmd := .field 20 (.one 306 .str) },
  { cmd := .field 21 (.one 307 .str) }]

/-- Fields of `Group`. -/
def Obj.groupSpec : List Decl := [
  /- 2 description -/ ⟨.str, ([] : Str)⟩,
  /- 3 is_named -/ ⟨.bool, (true : Bool)⟩,
  /- 4 is_selectable -/ ⟨.bool, (true : Bool)⟩,
  /- 5 __entities_handle -/ ⟨.list .handle, ([] : List (Handle))⟩]

/-- Match arms of the reader of `Group`. -/
def Obj.groupArms : List (Arm (objectDecls ++ Obj.groupSpec)) := [
  ⟨300, .on 2 (.set .str)⟩,
  ⟨70, .on 3 (.set .notBool)⟩,
  ⟨71, .on 4 (.set .asBool)⟩,
  ⟨340, .on 5 (.push .handle)⟩] ++ objectArms Obj.groupSpec

/-- The specific write statements of `Group`. -/
def Obj.groupCmds : List (GCmd (objectDecls ++ Obj.groupSpec)) := [
  { cmd := .const (.newStr 100 str!"AcDbGroup") },
  { cmd := .field 2 (.one 300 .str) },
  { cmd := .field 3 (.one 70 .notI16) },
  { cmd := .field 4 (.one 71 .asI16) },
  { cmd := .field 5 (.many 340 .handle) }]

/-- Fields of `IdBuffer`. -/
def Obj.idBufferSpec : List Decl := [
  /- 2 __entities_handle -/ ⟨.list .handle, ([] : List (Handle))⟩]

/-- Match arms of the reader of `IdBuffer`. -/
def Obj.idBufferArms : List (Arm (objectDecls ++ Obj.idBufferSpec)) := [
  ⟨330, .on 2 (.push .handle)⟩] ++ objectArms Obj.idBufferSpec

/-- The specific write statements of `IdBuffer`. -/
def Obj.idBufferCmds : List (GCmd (objectDecls ++ Obj.idBufferSpec)) := [
  { cmd := .const (.newStr 100 str!"AcDbIdBuffer") },
  { cmd := .field 2 (.many 330 .handle) }]

/-- Fields of `ImageDefinition`. -/
def Obj.imageDefinitionSpec : List Decl := [
  /- 2 class_version -/ ⟨.i32, (0#32 : BitVec 32)⟩,
  /- 3 file_path -/ ⟨.str, ([] : Str)⟩,
  /- 4 image_width -/ ⟨.i32, (0#32 : BitVec 32)⟩,
  /- 5 image_height -/ ⟨.i32, (0#32 : BitVec 32)⟩,
  /- 6 pixel_width -/ ⟨.f64, (⟨0x0000000000000000#64⟩ : F64)⟩,
  /- 7 pixel_height -/ ⟨.f64, (⟨0x0000000000000000#64⟩ : F64)⟩,
  /- 8 is_image_loaded -/ ⟨.bool, (true : Bool)⟩,
  /- 9 resolution_units -/ ⟨.enum E.imageResolutionUnits, (⟨0, by decide⟩ : Fin (List.length E.imageResolutionUnits))⟩]

/-- Match arms of the reader of `ImageDefinition`. -/
def Obj.imageDefinitionArms : List (Arm (objectDecls ++ Obj.imageDefinitionSpec)) := [
  ⟨90, .on 2 (.set .i32)⟩,
  ⟨1, .on 3 (.set .str)⟩,
  ⟨10, .on 4 (.set .i32OfF64)⟩,
  ⟨20, .on 5 (.set .i32OfF64)⟩,
  ⟨11, .on 6 (.set .f64)⟩,
  ⟨12, .on 7 (.set .f64)⟩,
  ⟨280, .on 8 (.set .asBool)⟩,
  ⟨281, .on 9 (.set (.enumI16 E.imageResolutionUnits ⟨0, by decide⟩))⟩] ++ objectArms Obj.imageDefinitionSpec

/-- The specific write statements of `ImageDefinition`. -/
def Obj.imageDefinitionCmds : List (GCmd (objectDecls ++ Obj.imageDefinitionSpec)) := [
  { cmd := .const (.newStr 100 str!"AcDbRasterImageDef") },
  { cmd := .field 2 (.one 90 .i32) },
  { cmd := .field 3 (.one 1 .str) },
  { cmd := .field 4 (.one 10 .i32AsF64) },
  { cmd := .field 5 (.one 20 .i32AsF64) },
  { cmd := .field 6 (.one 11 .f64) },
  { cmd := .field 7 (.one 12 .f64) },
  { cmd := .field 8 (.one 280 .asI16) },
  { cmd := .field 9 (.one 281 (.enumI16 E.imageResolutionUnits)) }]

/-- Fields of `ImageDefinitionReactor`. -/
def Obj.imageDefinitionReactorSpec : List Decl := [
  /- 2 class_version -/ ⟨.i32, (0#32 : BitVec 32)⟩]

/-- Match arms of the reader of `ImageDefinitionReactor`. -/
def Obj.imageDefinitionReactorArms : List (Arm (objectDecls ++ Obj.imageDefinitionReactorSpec)) := [
  ⟨90, .on 2 (.set .i32)⟩] ++ objectArms Obj.imageDefinitionReactorSpec

/-- The specific write statements of `ImageDefinitionReactor`. -/
def Obj.imageDefinitionReactorCmds : List (GCmd (objectDecls ++ Obj.imageDefinitionReactorSpec)) := [
  { cmd := .const (.newStr 100 str!"AcDbRasterImageDefReactor") },
  { cmd := .field 2 (.one 90 .i32) }]

/-- Fields of `LayerFilter`. -/
def Obj.layerFilterSpec : List Decl := [
  /- 2 layer_names -/ ⟨.list .str, ([] : List (Str))⟩]

/-- Match arms of the reader of `LayerFilter`. -/
def Obj.layerFilterArms : List (Arm (objectDecls ++ Obj.layerFilterSpec)) := [
  ⟨8, .on 2 (.push .str)⟩] ++ objectArms Obj.layerFilterSpec

/-- The specific write statements of `LayerFilter`. -/
def Obj.layerFilterCmds : List (GCmd (objectDecls ++ Obj.layerFilterSpec)) := [
  { cmd := .const (.newStr 100 str!"AcDbFilter") },
  { cmd := .const (.newStr 100 str!"AcDbLayerFilter") },
  { cmd := .field 2 (.many 8 .str) }]

/-- Fields of `LayerIndex`. -/
def Obj.layerIndexSpec : List Decl := [
  /- 2 time_stamp -/ ⟨.date, (0 : Date)⟩,
  /- 3 layer_names -/ ⟨.list .str, ([] : List (Str))⟩,
  /- 4 __id_buffers_handle -/ ⟨.list .handle, ([] : List (Handle))⟩,
  /- 5 id_buffer_counts -/ ⟨.list .i32, ([] : List (I32))⟩]

/-- Match arms of the reader of `LayerIndex`. -/
def Obj.layerIndexArms : List (Arm (objectDecls ++ Obj.layerIndexSpec)) := [
  ⟨40, .on 2 (.set .date)⟩,
  ⟨8, .on 3 (.push .str)⟩,
  ⟨360, .on 4 (.push .handle)⟩,
  ⟨90, .on 5 (.push .i32)⟩] ++ objectArms Obj.layerIndexSpec

/-- The specific write statements of `LayerIndex`. -/
def Obj.layerIndexCmds : List (GCmd (objectDecls ++ Obj.layerIndexSpec)) := [
  { cmd := .const (.newStr 100 str!"AcDbIndex") },
  { cmd := .field 2 (.one 40 .date) },
  { cmd := .const (.newStr 100 str!"AcDbLayerIndex") },
  { cmd := .field 3 (.many 8 .str) },
  { cmd := .field 4 (.many 360 .handle) },
  { cmd := .field 5 (.many 90 .i32) }]

/-- Fields of `Layout`. -/
def Obj.layoutSpec : List Decl := [
  /- 2 layout_name -/ ⟨.str, ([] : Str)⟩,
  /- 3 layout_flags -/ ⟨.i32, (0#32 : BitVec 32)⟩,
  /- 4 tab_order -/ ⟨.i32, (0#32 : BitVec 32)⟩,
  /- 5 minimum_limits -/ ⟨.point, (⟨(⟨0x0000000000000000#64⟩ : F64), (⟨0x0000000000000000#64⟩ : F64), (⟨0x0000000000000000#64⟩ : F64)⟩ : Point)⟩,
  /- 6 maximum_limits -/ ⟨.point, (⟨(⟨0x0000000000000000#64⟩ : F64), (⟨0x0000000000000000#64⟩ : F64), (⟨0x0000000000000000#64⟩ : F64)⟩ : Point)⟩,
  /- 7 insertion_base_point -/ ⟨.point, (⟨(⟨0x0000000000000000#64⟩ : F64), (⟨0x0000000000000000#64⟩ : F64), (⟨0x0000000000000000#64⟩ : F64)⟩ : Point)⟩,
  /- 8 minimum_extents -/ ⟨.point, (⟨(⟨0x0000000000000000#64⟩ : F64), (⟨0x0000000000000000#64⟩ : F64), (⟨0x0000000000000000#64⟩ : F64)⟩ : Point)⟩,
  /- 9 maximum_extents -/ ⟨.point, (⟨(⟨0x0000000000000000#64⟩ : F64), (⟨0x0000000000000000#64⟩ : F64), (⟨0x0000000000000000#64⟩ : F64)⟩ : Point)⟩,
  /- 10 elevation -/ ⟨.f64, (⟨0x0000000000000000#64⟩ : F64)⟩,
  /- 11 ucs_origin -/ ⟨.point, (⟨(⟨0x0000000000000000#64⟩ : F64), (⟨0x0000000000000000#64⟩ : F64), (⟨0x0000000000000000#64⟩ : F64)⟩ : Point)⟩,
  /- 12 ucs_x_axis -/ ⟨.point, (⟨(⟨0x3ff0000000000000#64⟩ : F64), (⟨0x0000000000000000#64⟩ : F64), (⟨0x0000000000000000#64⟩ : F64)⟩ : Point)⟩,
  /- 13 ucs_y_axis -/ ⟨.point, (⟨(⟨0x0000000000000000#64⟩ : F64), (⟨0x3ff0000000000000#64⟩ : F64), (⟨0x0000000000000000#64⟩ : F64)⟩ : Point)⟩,
  /- 14 ucs_orthographic_type -/ ⟨.enum E.ucsOrthographicType, (⟨0, by decide⟩ : Fin (List.length E.ucsOrthographicType))⟩,
  /- 15 __viewport_handle -/ ⟨.handle, (0#64 : Handle)⟩,
  /- 16 __table_record_handle -/ ⟨.handle, (0#64 : Handle)⟩,
  /- 17 __table_record_base_handle -/ ⟨.handle, (0#64 : Handle)⟩]

/-- Match arms of the hand-written reader of `Layout` (src/object.rs:511-). -/
def Obj.layoutArms (m : OMode) : List (Arm (objectDecls ++ Obj.layoutSpec)) := bif m.a then [
  ⟨1, .on 2 (.set .str)⟩,
  ⟨10, .on 5 (.axis .x)⟩,
  ⟨20, .on 5 (.axis .y)⟩,
  ⟨11, .on 6 (.axis .x)⟩,
  ⟨21, .on 6 (.axis .y)⟩,
  ⟨12, .on 7 (.axis .x)⟩,
  ⟨22, .on 7 (.axis .y)⟩,
  ⟨32, .on 7 (.axis .z)⟩,
  ⟨13, .on 11 (.axis .x)⟩,
  ⟨23, .on 11 (.axis .y)⟩,
  ⟨33, .on 11 (.axis .z)⟩,
  ⟨14, .on 8 (.axis .x)⟩,
  ⟨24, .on 8 (.axis .y)⟩,
  ⟨34, .on 8 (.axis .z)⟩,
  ⟨15, .on 9 (.axis .x)⟩,
  ⟨25, .on 9 (.axis .y)⟩,
  ⟨35, .on 9 (.axis .z)⟩,
  ⟨16, .on 12 (.axis .x)⟩,
  ⟨26, .on 12 (.axis .y)⟩,
  ⟨36, .on 12 (.axis .z)⟩,
  ⟨17, .on 13 (.axis .x)⟩,
  ⟨27, .on 13 (.axis .y)⟩,
  ⟨37, .on 13 (.axis .z)⟩,
  ⟨70, .on 3 (.set .i32OfI16)⟩,
  ⟨71, .on 4 (.set .i32OfI16)⟩,
  ⟨76, .on 14 (.set (.enumI16 E.ucsOrthographicType ⟨0, by decide⟩))⟩,
  ⟨146, .on 10 (.set .f64)⟩,
  ⟨330, .on 15 (.set .handle)⟩,
  ⟨345, .on 16 (.set .handle)⟩,
  ⟨346, .on 17 (.set .handle)⟩] ++ objectArms Obj.layoutSpec else ⟨100, .on 999 (.set .ignoreStr)⟩ :: objectArms Obj.layoutSpec

/-- The specific write statements of `Layout`. -/
def Obj.layoutCmds : List (GCmd (objectDecls ++ Obj.layoutSpec)) := [
  { cmd := .const (.newStr 100 str!"AcDbLayout") },
  { cmd := .field 2 (.one 1 .str) },
  { cmd := .field 3 (.one 70 .i32AsI16) },
  { cmd := .field 4 (.one 71 .i32AsI16) },
  { cmd := .field 5 (.axes [(.x, 10), (.y, 20)]) },
  { cmd := .field 6 (.axes [(.x, 11), (.y, 21)]) },
  { cmd := .field 7 (.axes [(.x, 12), (.y, 22), (.z, 32)]) },
  { cmd := .field 8 (.axes [(.x, 14), (.y, 24), (.z, 34)]) },
  { cmd := .field 9 (.axes [(.x, 15), (.y, 25), (.z, 35)]) },
  { cmd := .field 10 (.one 146 .f64) },
  { cmd := .field 11 (.axes [(.x, 13), (.y, 23), (.z, 33)]) },
  { cmd := .field 12 (.axes [(.x, 16), (.y, 26), (.z, 36)]) },
  { cmd := .field 13 (.axes [(.x, 17), (.y, 27), (.z, 37)]) },
  { cmd := .field 14 (.one 76 (.enumI16 E.ucsOrthographicType)) },
  { cmd := .field 15 (.one 330 .handle) },
  { cmd := .field 16 (.one 345 .handle) },
  { cmd := .field 17 (.one 346 .handle) }]

/-- Fields of `LightList`. -/
def Obj.lightListSpec : List Decl := [
  /- 2 version -/ ⟨.i32, (0#32 : BitVec 32)⟩,
  /- 3 __lights_handle -/ ⟨.list .handle, ([] : List (Handle))⟩]

/-- Match arms of the hand-written reader of `LightList` (src/object.rs:629-). -/
def Obj.lightListArms : List (Arm (objectDecls ++ Obj.lightListSpec)) := [
  ⟨90, .on 2 (.set .i32)⟩] ++ objectArms Obj.lightListSpec

/-- The specific write statements of `LightList`. -/
def Obj.lightListCmds : List (GCmd (objectDecls ++ Obj.lightListSpec)) := [
  { cmd := .const (.newStr 100 str!"AcDbLightList") },
  { cmd := .field 2 (.one 90 .i32) }]

/-- Fields of `Material`. -/
def Obj.materialSpec : List Decl := [
  /- 2 name -/ ⟨.str, ([] : Str)⟩,
  /- 3 description -/ ⟨.str, ([] : Str)⟩,
  /- 4 override_ambient_color -/ ⟨.bool, (false : Bool)⟩,
  /- 5 ambient_color_factor -/ ⟨.f64, (⟨0x3ff0000000000000#64⟩ : F64)⟩,
  /- 6 ambient_color_value -/ ⟨.i32, (0#32 : BitVec 32)⟩,
  /- 7 override_diffuse_color -/ ⟨.bool, (false : Bool)⟩,
  /- 8 diffuse_color_factor -/ ⟨.f64, (⟨0x3ff0000000000000#64⟩ : F64)⟩,
  /- 9 diffuse_color_value -/ ⟨.i32, (0#32 : BitVec 32)⟩,
  /- 10 diffuse_map_blend_factor -/ ⟨.f64, (⟨0x3ff0000000000000#64⟩ : F64)⟩,
  /- 11 use_image_file_for_diffuse_map -/ ⟨.bool, (false : Bool)⟩,
  /- 12 diffuse_map_file_name -/ ⟨.str, ([] : Str)⟩,
  /- 13 diffuse_map_projection_method -/ ⟨.enum E.mapProjectionMethod, (⟨0, by decide⟩ : Fin (List.length E.mapProjectionMethod))⟩,
  /- 14 diffuse_map_tiling_method -/ ⟨.enum E.mapTilingMethod, (⟨0, by decide⟩ : Fin (List.length E.mapTilingMethod))⟩,
  /- 15 diffuse_map_auto_transform_method -/ ⟨.enum E.mapAutoTransformMethod, (⟨0, by decide⟩ : Fin (List.length E.mapAutoTransformMethod))⟩,
  /- 16 diffuse_map_transformation_matrix -/ ⟨.list .f64, ([(⟨0x3ff0000000000000#64⟩ : F64), (⟨0x0000000000000000#64⟩ : F64), (⟨0x0000000000000000#64⟩ : F64), (⟨0x0000000000000000#64⟩ : F64), (⟨0x0000000000000000#64⟩ : F64), (⟨0x3ff0000000000000#64⟩ : F64), (⟨0x0000000000000000#64⟩ : F64), (⟨0x0000000000000000#64⟩ : F64), (⟨0x0000000000000000#64⟩ : F64), (⟨0x0000000000000000#64⟩ : F64), (⟨0x3ff0000000000000#64⟩ : F64), (⟨0x0000000000000000#64⟩ : F64), (⟨0x0000000000000000#64⟩ : F64), (⟨0x0000000000000000#64⟩ : F64), (⟨0x0000000000000000#64⟩ : F64), (⟨0x3ff0000000000000#64⟩ : F64)] : List F64)⟩,
  /- 17 __diffuse_map_transformation_matrix_values -/ ⟨.list .f64, ([] : List (F64))⟩,
  /- 18 specular_gloss_factor -/ ⟨.f64, (⟨0x3fe0000000000000#64⟩ : F64)⟩,
  /- 19 override_specular_color -/ ⟨.bool, (false : Bool)⟩,
  /- 20 specular_color_factor -/ ⟨.f64, (⟨0x3ff0000000000000#64⟩ : F64)⟩,
  /- 21 specular_color_value -/ ⟨.i32, (0#32 : BitVec 32)⟩,
  /- 22 specular_map_blend_factor -/ ⟨.f64, (⟨0x3ff0000000000000#64⟩ : F64)⟩,
  /- 23 use_image_file_for_specular_map -/ ⟨.bool, (false : Bool)⟩,
  /- 24 specular_map_file_name -/ ⟨.str, ([] : Str)⟩,
  /- 25 specular_map_projection_method -/ ⟨.enum E.mapProjectionMethod, (⟨0, by decide⟩ : Fin (List.length E.mapProjectionMethod))⟩,
  /- 26 specular_map_tiling_method -/ ⟨.enum E.mapTilingMethod, (⟨0, by decide⟩ : Fin (List.length E.mapTilingMethod))⟩,
  /- 27 specular_map_auto_transform_method -/ ⟨.enum E.mapAutoTransformMethod, (⟨0, by decide⟩ : Fin (List.length E.mapAutoTransformMethod))⟩,
  /- 28 specular_map_transformation_matrix -/ ⟨.list .f64, ([(⟨0x3ff0000000000000#64⟩ : F64), (⟨0x0000000000000000#64⟩ : F64), (⟨0x0000000000000000#64⟩ : F64), (⟨0x0000000000000000#64⟩ : F64), (⟨0x0000000000000000#64⟩ : F64), (⟨0x3ff0000000000000#64⟩ : F64), (⟨0x0000000000000000#64⟩ : F64), (⟨0x0000000000000000#64⟩ : F64), (⟨0x0000000000000000#64⟩ : F64), (⟨0x0000000000000000#64⟩ : F64), (⟨0x3ff0000000000000#64⟩ : F64), (⟨0x0000000000000000#64⟩ : F64), (⟨0x0000000000000000#64⟩ : F64), (⟨0x0000000000000000#64⟩ : F64), (⟨0x0000000000000000#64⟩ : F64), (⟨0x3ff0000000000000#64⟩ : F64)] : List F64)⟩,
  /- 29 __specular_map_transformation_matrix_values -/ ⟨.list .f64, ([] : List (F64))⟩,
  /- 30 reflection_map_blend_factor -/ ⟨.f64, (⟨0x3ff0000000000000#64⟩ : F64)⟩,
  /- 31 use_image_file_for_reflection_map -/ ⟨.bool, (false : Bool)⟩,
  /- 32 reflection_map_file_name -/ ⟨.str, ([] : Str)⟩,
  /- 33 reflection_map_projection_method -/ ⟨.enum E.mapProjectionMethod, (⟨0, by decide⟩ : Fin (List.length E.mapProjectionMethod))⟩,
  /- 34 reflection_map_tiling_method -/ ⟨.enum E.mapTilingMethod, (⟨0, by decide⟩ : Fin (List.length E.mapTilingMethod))⟩,
  /- 35 reflection_map_auto_transform_method -/ ⟨.enum E.mapAutoTransformMethod, (⟨0, by decide⟩ : Fin (List.length E.mapAutoTransformMethod))⟩,
  /- 36 reflection_map_transformation_matrix -/ ⟨.list .f64, ([(⟨0x3ff0000000000000#64⟩ : F64), (⟨0x0000000000000000#64⟩ : F64), (⟨0x0000000000000000#64⟩ : F64), (⟨0x0000000000000000#64⟩ : F64), (⟨0x0000000000000000#64⟩ : F64), (⟨0x3ff0000000000000#64⟩ : F64), (⟨0x0000000000000000#64⟩ : F64), (⟨0x0000000000000000#64⟩ : F64), (⟨0x0000000000000000#64⟩ : F64), (⟨0x0000000000000000#64⟩ : F64), (⟨0x3ff0000000000000#64⟩ : F64), (⟨0x0000000000000000#64⟩ : F64), (⟨0x0000000000000000#64⟩ : F64), (⟨0x0000000000000000#64⟩ : F64), (⟨0x0000000000000000#64⟩ : F64), (⟨0x3ff0000000000000#64⟩ : F64)] : List F64)⟩,
  /- 37 __reflection_map_transformation_matrix_values -/ ⟨.list .f64, ([] : List (F64))⟩,
  /- 38 opacity_factor -/ ⟨.f64, (⟨0x3ff0000000000000#64⟩ : F64)⟩,
  /- 39 opacity_map_blend_factor -/ ⟨.f64, (⟨0x3ff0000000000000#64⟩ : F64)⟩,
  /- 40 use_image_file_for_opacity_map -/ ⟨.bool, (false : Bool)⟩,
  /- 41 opacity_map_file_name -/ ⟨.str, ([] : Str)⟩,
  /- 42 opacity_map_projection_method -/ ⟨.enum E.mapProjectionMethod, (⟨0, by decide⟩ : Fin (List.length E.mapProjectionMethod))⟩,
  /- 43 opacity_map_tiling_method -/ ⟨.enum E.mapTilingMethod, (⟨0, by decide⟩ : Fin (List.length E.mapTilingMethod))⟩,
  /- 44 opacity_map_auto_transform_method -/ ⟨.enum E.mapAutoTransformMethod, (⟨0, by decide⟩ : Fin (List.length E.mapAutoTransformMethod))⟩,
  /- 45 opacity_map_transformation_matrix -/ ⟨.list .f64, ([(⟨0x3ff0000000000000#64⟩ : F64), (⟨0x0000000000000000#64⟩ : F64), (⟨0x0000000000000000#64⟩ : F64), (⟨0x0000000000000000#64⟩ : F64), (⟨0x0000000000000000#64⟩ : F64), (⟨0x3ff0000000000000#64⟩ : F64), (⟨0x0000000000000000#64⟩ : F64), (⟨0x0000000000000000#64⟩ : F64), (⟨0x0000000000000000#64⟩ : F64), (⟨0x0000000000000000#64⟩ : F64), (⟨0x3ff0000000000000#64⟩ : F64), (⟨0x0000000000000000#64⟩ : F64), (⟨0x0000000000000000#64⟩ : F64), (⟨0x0000000000000000#64⟩ : F64), (⟨0x0000000000000000#64⟩ : F64), (⟨0x3ff0000000000000#64⟩ : F64)] : List F64)⟩,
  /- 46 __opacity_map_transformation_matrix_values -/ ⟨.list .f64, ([] : List (F64))⟩,
  /- 47 bump_map_blend_factor -/ ⟨.f64, (⟨0x3ff0000000000000#64⟩ : F64)⟩,
  /- 48 use_image_file_for_bump_map -/ ⟨.bool, (false : Bool)⟩,
  /- 49 bump_map_file_name -/ ⟨.str, ([] : Str)⟩,
  /- 50 bump_map_projection_method -/ ⟨.enum E.mapProjectionMethod, (⟨0, by decide⟩ : Fin (List.length E.mapProjectionMethod))⟩,
  /- 51 bump_map_tiling_method -/ ⟨.enum E.mapTilingMethod, (⟨0, by decide⟩ : Fin (List.length E.mapTilingMethod))⟩,
  /- 52 bump_map_auto_transform_method -/ ⟨.enum E.mapAutoTransformMethod, (⟨0, by decide⟩ : Fin (List.length E.mapAutoTransformMethod))⟩,
  /- 53 bump_map_transformation_matrix -/ ⟨.list .f64, ([(⟨0x3ff0000000000000#64⟩ : F64), (⟨0x0000000000000000#64⟩ : F64), (⟨0x0000000000000000#64⟩ : F64), (⟨0x0000000000000000#64⟩ : F64), (⟨0x0000000000000000#64⟩ : F64), (⟨0x3ff0000000000000#64⟩ : F64), (⟨0x0000000000000000#64⟩ : F64), (⟨0x0000000000000000#64⟩ : F64), (⟨0x0000000000000000#64⟩ : F64), (⟨0x0000000000000000#64⟩ : F64), (⟨0x3ff0000000000000#64⟩ : F64), (⟨0x0000000000000000#64⟩ : F64), (⟨0x0000000000000000#64⟩ : F64), (⟨0x0000000000000000#64⟩ : F64), (⟨0x0000000000000000#64⟩ : F64), (⟨0x3ff0000000000000#64⟩ : F64)] : List F64)⟩,
  /- 54 __bump_map_transformation_matrix_values -/ ⟨.list .f64, ([] : List (F64))⟩,
  /- 55 refraction_index -/ ⟨.f64, (⟨0x3ff0000000000000#64⟩ : F64)⟩,
  /- 56 refraction_map_blend_factor -/ ⟨.f64, (⟨0x3ff0000000000000#64⟩ : F64)⟩,
  /- 57 use_image_file_for_refraction_map -/ ⟨.bool, (false : Bool)⟩,
  /- 58 refraction_map_file_name -/ ⟨.str, ([] : Str)⟩,
  /- 59 refraction_map_projection_method -/ ⟨.enum E.mapProjectionMethod, (⟨0, by decide⟩ : Fin (List.length E.mapProjectionMethod))⟩,
  /- 60 refraction_map_tiling_method -/ ⟨.enum E.mapTilingMethod, (⟨0, by decide⟩ : Fin (List.length E.mapTilingMethod))⟩,
  /- 61 refraction_map_auto_transform_method -/ ⟨.enum E.mapAutoTransformMethod, (⟨0, by decide⟩ : Fin (List.length E.mapAutoTransformMethod))⟩,
  /- 62 refraction_map_transformation_matrix -/ ⟨.list .f64, ([(⟨0x3ff0000000000000#64⟩ : F64), (⟨0x0000000000000000#64⟩ : F64), (⟨0x0000000000000000#64⟩ : F64), (⟨0x0000000000000000#64⟩ : F64), (⟨0x0000000000000000#64⟩ : F64), (⟨0x3ff0000000000000#64⟩ : F64), (⟨0x0000000000000000#64⟩ : F64), (⟨0x0000000000000000#64⟩ : F64), (⟨0x0000000000000000#64⟩ : F64), (⟨0x0000000000000000#64⟩ : F64), (⟨0x3ff0000000000000#64⟩ : F64), (⟨0x0000000000000000#64⟩ : F64), (⟨0x0000000000000000#64⟩ : F64), (⟨0x0000000000000000#64⟩ : F64), (⟨0x0000000000000000#64⟩ : F64), (⟨0x3ff0000000000000#64⟩ : F64)] : List F64)⟩,
  /- 63 __refraction_map_transformation_matrix_values -/ ⟨.list .f64, ([] : List (F64))⟩,
  /- 64 color_bleed_scale -/ ⟨.f64, (⟨0x0000000000000000#64⟩ : F64)⟩,
  /- 65 indirect_dump_scale -/ ⟨.f64, (⟨0x0000000000000000#64⟩ : F64)⟩,
  /- 66 reflectance_scale -/ ⟨.f64, (⟨0x0000000000000000#64⟩ : F64)⟩,
  /- 67 transmittance_scale -/ ⟨.f64, (⟨0x0000000000000000#64⟩ : F64)⟩,
  /- 68 is_two_sided -/ ⟨.bool, (false : Bool)⟩,
  /- 69 luminance -/ ⟨.f64, (⟨0x0000000000000000#64⟩ : F64)⟩,
  /- 70 luminance_mode -/ ⟨.i16, (0#16 : BitVec 16)⟩,
  /- 71 normal_map_method -/ ⟨.i16, (0#16 : BitVec 16)⟩,
  /- 72 normal_map_strength -/ ⟨.f64, (⟨0x3ff0000000000000#64⟩ : F64)⟩,
  /- 73 normal_map_blend_factor -/ ⟨.f64, (⟨0x3ff0000000000000#64⟩ : F64)⟩,
  /- 74 use_image_file_for_normal_map -/ ⟨.bool, (false : Bool)⟩,
  /- 75 normal_map_file_name -/ ⟨.str, ([] : Str)⟩,
  /- 76 normal_map_projection_method -/ ⟨.enum E.mapProjectionMethod, (⟨0, by decide⟩ : Fin (List.length E.mapProjectionMethod))⟩,
  /- 77 normal_map_tiling_method -/ ⟨.enum E.mapTilingMethod, (⟨0, by decide⟩ : Fin (List.length E.mapTilingMethod))⟩,
  /- 78 normal_map_auto_transform_method -/ ⟨.enum E.mapAutoTransformMethod, (⟨0, by decide⟩ : Fin (List.length E.mapAutoTransformMethod))⟩,
  /- 79 normal_map_transformation_matrix -/ ⟨.list .f64, ([(⟨0x3ff0000000000000#64⟩ : F64), (⟨0x0000000000000000#64⟩ : F64), (⟨0x0000000000000000#64⟩ : F64), (⟨0x0000000000000000#64⟩ : F64), (⟨0x0000000000000000#64⟩ : F64), (⟨0x3ff0000000000000#64⟩ : F64), (⟨0x0000000000000000#64⟩ : F64), (⟨0x0000000000000000#64⟩ : F64), (⟨0x0000000000000000#64⟩ : F64), (⟨0x0000000000000000#64⟩ : F64), (⟨0x3ff0000000000000#64⟩ : F64), (⟨0x0000000000000000#64⟩ : F64), (⟨0x0000000000000000#64⟩ : F64), (⟨0x0000000000000000#64⟩ : F64), (⟨0x0000000000000000#64⟩ : F64), (⟨0x3ff0000000000000#64⟩ : F64)] : List F64)⟩,
  /- 80 __normal_map_transformation_matrix_values -/ ⟨.list .f64, ([] : List (F64))⟩,
  /- 81 is_anonymous -/ ⟨.bool, (false : Bool)⟩,
  /- 82 global_illumination_mode -/ ⟨.i16, (0#16 : BitVec 16)⟩,
  /- 83 final_gather_mode -/ ⟨.i16, (0#16 : BitVec 16)⟩,
  /- 84 gen_proc_name -/ ⟨.str, ([] : Str)⟩,
  /- 85 gen_proc_boolean_value -/ ⟨.bool, (false : Bool)⟩,
  /- 86 gen_proc_integer_value -/ ⟨.i16, (0#16 : BitVec 16)⟩,
  /- 87 gen_proc_real_value -/ ⟨.f64, (⟨0x0000000000000000#64⟩ : F64)⟩,
  /- 88 gen_proc_text_value -/ ⟨.str, ([] : Str)⟩,
  /- 89 gen_proc_table_end -/ ⟨.bool, (false : Bool)⟩,
  /- 90 gen_proc_color_index_value -/ ⟨.i16, (256#16 : I16)⟩,
  /- 91 gen_proc_color_rgb_value -/ ⟨.i32, (0#32 : BitVec 32)⟩,
  /- 92 gen_proc_color_name -/ ⟨.str, ([] : Str)⟩,
  /- 93 map_u_tile -/ ⟨.i16, (0#16 : BitVec 16)⟩,
  /- 94 map_v_tile -/ ⟨.i16, (0#16 : BitVec 16)⟩,
  /- 95 translucence -/ ⟨.f64, (⟨0x0000000000000000#64⟩ : F64)⟩,
  /- 96 self_illumination -/ ⟨.i32, (0#32 : BitVec 32)⟩,
  /- 97 reflectivity -/ ⟨.f64, (⟨0x0000000000000000#64⟩ : F64)⟩,
  /- 98 illumination_model -/ ⟨.i32, (0#32 : BitVec 32)⟩,
  /- 99 channel_flags -/ ⟨.i32, (0#32 : BitVec 32)⟩]

/-- Match arms of the hand-written reader of `Material` (src/object.rs:663-). -/
def Obj.materialArms (m : OMode) : List (Arm (objectDecls ++ Obj.materialSpec)) := [
  ⟨1, .on 2 (.set .str)⟩,
  ⟨2, .on 3 (.set .str)⟩,
  ⟨3, bif m.seen.contains 3 then .on 75 (.set .str) else .on 12 (.set .str)⟩,
  ⟨4, .on 75 (.set .str)⟩,
  ⟨6, .on 32 (.set .str)⟩,
  ⟨7, .on 41 (.set .str)⟩,
  ⟨8, .on 49 (.set .str)⟩,
  ⟨9, .on 58 (.set .str)⟩,
  ⟨40, .on 5 (.set .f64)⟩,
  ⟨41, .on 8 (.set .f64)⟩,
  ⟨42, bif m.seen.contains 42 then .on 73 (.set .f64) else .on 10 (.set .f64)⟩,
  ⟨43, bif m.a then .on 80 (.push .f64) else .on 17 (.push .f64)⟩,
  ⟨44, .on 18 (.set .f64)⟩,
  ⟨45, .on 20 (.set .f64)⟩,
  ⟨46, .on 22 (.set .f64)⟩,
  ⟨47, .on 29 (.push .f64)⟩,
  ⟨48, .on 30 (.set .f64)⟩,
  ⟨49, .on 37 (.push .f64)⟩,
  ⟨62, .on 90 (.set .i16)⟩,
  ⟨70, .on 4 (.set .asBool)⟩,
  ⟨71, .on 7 (.set .asBool)⟩,
  ⟨72, bif m.seen.contains 72 then .on 74 (.set .asBool) else .on 11 (.set .asBool)⟩,
  ⟨73, bif m.seen.contains 73 then .on 76 (.set (.enumI16 E.mapProjectionMethod ⟨0, by decide⟩)) else .on 13 (.set (.enumI16 E.mapProjectionMethod ⟨0, by decide⟩))⟩,
  ⟨74, bif m.seen.contains 74 then .on 77 (.set (.enumI16 E.mapTilingMethod ⟨0, by decide⟩)) else .on 14 (.set (.enumI16 E.mapTilingMethod ⟨0, by decide⟩))⟩,
  ⟨75, bif m.seen.contains 75 then .on 78 (.set (.enumI16 E.mapAutoTransformMethod ⟨0, by decide⟩)) else .on 15 (.set (.enumI16 E.mapAutoTransformMethod ⟨0, by decide⟩))⟩,
  ⟨76, .on 19 (.set .asBool)⟩,
  ⟨77, .on 23 (.set .asBool)⟩,
  ⟨78, .on 25 (.set (.enumI16 E.mapProjectionMethod ⟨0, by decide⟩))⟩,
  ⟨79, .on 26 (.set (.enumI16 E.mapTilingMethod ⟨0, by decide⟩))⟩,
  ⟨90, bif m.seen.contains 90 then .on 96 (.set .i32) else .on 6 (.set .i32)⟩,
  ⟨91, .on 9 (.set .i32)⟩,
  ⟨92, .on 21 (.set .i32)⟩,
  ⟨93, .on 98 (.set .i32)⟩,
  ⟨94, .on 99 (.set .i32)⟩,
  ⟨140, .on 38 (.set .f64)⟩,
  ⟨141, .on 39 (.set .f64)⟩,
  ⟨142, .on 46 (.push .f64)⟩,
  ⟨143, .on 47 (.set .f64)⟩,
  ⟨144, .on 54 (.push .f64)⟩,
  ⟨145, .on 55 (.set .f64)⟩,
  ⟨146, .on 56 (.set .f64)⟩,
  ⟨147, .on 63 (.push .f64)⟩,
  ⟨148, .on 95 (.set .f64)⟩,
  ⟨170, .on 27 (.set (.enumI16 E.mapAutoTransformMethod ⟨0, by decide⟩))⟩,
  ⟨171, .on 31 (.set .asBool)⟩,
  ⟨172, .on 33 (.set (.enumI16 E.mapProjectionMethod ⟨0, by decide⟩))⟩,
  ⟨173, .on 34 (.set (.enumI16 E.mapTilingMethod ⟨0, by decide⟩))⟩,
  ⟨174, .on 35 (.set (.enumI16 E.mapAutoTransformMethod ⟨0, by decide⟩))⟩,
  ⟨175, .on 40 (.set .asBool)⟩,
  ⟨176, .on 42 (.set (.enumI16 E.mapProjectionMethod ⟨0, by decide⟩))⟩,
  ⟨177, .on 43 (.set (.enumI16 E.mapTilingMethod ⟨0, by decide⟩))⟩,
  ⟨178, .on 44 (.set (.enumI16 E.mapAutoTransformMethod ⟨0, by decide⟩))⟩,
  ⟨179, .on 48 (.set .asBool)⟩,
  ⟨270, match m.seen.count 270 with | 0 => .on 50 (.set (.enumI16 E.mapProjectionMethod ⟨0, by decide⟩)) | 1 => .on 70 (.set .i16) | _ => .on 93 (.set .i16)⟩,
  ⟨271, match m.seen.count 271 with | 0 => .on 51 (.set (.enumI16 E.mapTilingMethod ⟨0, by decide⟩)) | 1 => .on 71 (.set .i16) | _ => .on 86 (.set .i16)⟩,
  ⟨272, bif m.seen.contains 272 then .on 82 (.set .i16) else .on 52 (.set (.enumI16 E.mapAutoTransformMethod ⟨0, by decide⟩))⟩,
  ⟨273, bif m.seen.contains 273 then .on 83 (.set .i16) else .on 57 (.set .asBool)⟩,
  ⟨274, .on 59 (.set (.enumI16 E.mapProjectionMethod ⟨0, by decide⟩))⟩,
  ⟨275, .on 60 (.set (.enumI16 E.mapTilingMethod ⟨0, by decide⟩))⟩,
  ⟨276, .on 61 (.set (.enumI16 E.mapAutoTransformMethod ⟨0, by decide⟩))⟩,
  ⟨290, .on 68 (.set .bool)⟩,
  ⟨291, .on 85 (.set .bool)⟩,
  ⟨292, .on 89 (.set .bool)⟩,
  ⟨293, .on 81 (.set .bool)⟩,
  ⟨300, .on 84 (.set .str)⟩,
  ⟨301, .on 88 (.set .str)⟩,
  ⟨420, .on 91 (.set .i32)⟩,
  ⟨430, .on 92 (.set .str)⟩,
  ⟨460, .on 64 (.set .f64)⟩,
  ⟨461, .on 65 (.set .f64)⟩,
  ⟨462, .on 66 (.set .f64)⟩,
  ⟨463, .on 67 (.set .f64)⟩,
  ⟨464, .on 69 (.set .f64)⟩,
  ⟨465, .on 72 (.set .f64)⟩,
  ⟨468, .on 97 (.set .f64)⟩,
  ⟨469, .on 87 (.set .f64)⟩] ++ objectArms Obj.materialSpec

/-- The specific write statements of `Material`. -/
def Obj.materialCmds : List (GCmd (objectDecls ++ Obj.materialSpec)) := [
  { cmd := .field 2 (.one 1 .str) },
  { cmd := .field 3 (.one 2 .str) },
  { cmd := .field 4 (.one 70 .asI16) },
  { cmd := .field 5 (.one 40 .f64) },
  { cmd := .field 6 (.one 90 .i32) },
  { cmd := .field 7 (.one 71 .asI16) },
  { cmd := .field 8 (.one 41 .f64) },
  { cmd := .field 9 (.one 91 .i32) },
  { cmd := .field 10 (.one 42 .f64) },
  { cmd := .field 11 (.one 72 .asI16) },
  { cmd := .field 12 (.one 3 .str) },
  { cmd := .field 13 (.one 73 (.enumI16 E.mapProjectionMethod)) },
  { cmd := .field 14 (.one 74 (.enumI16 E.mapTilingMethod)) },
  { cmd := .field 15 (.one 75 (.enumI16 E.mapAutoTransformMethod)) },
  { cmd := .field 16 (.many 43 .f64) },
  { cmd := .field 20 (.one 45 .f64) },
  { cmd := .field 19 (.one 76 .asI16) },
  { cmd := .field 20 (.one 45 .f64) },
  { cmd := .field 21 (.one 92 .i32) },
  { cmd := .field 22 (.one 46 .f64) },
  { cmd := .field 23 (.one 77 .asI16) },
  { cmd := .field 24 (.one 4 .str) },
  { cmd := .field 25 (.one 78 (.enumI16 E.mapProjectionMethod)) },
  { cmd := .field 26 (.one 79 (.enumI16 E.mapTilingMethod)) },
  { cmd := .field 27 (.one 170 (.enumI16 E.mapAutoTransformMethod)) },
  { cmd := .field 28 (.many 47 .f64) },
  { cmd := .field 30 (.one 48 .f64) },
  { cmd := .field 31 (.one 171 .asI16) },
  { cmd := .field 32 (.one 6 .str) },
  { cmd := .field 33 (.one 172 (.enumI16 E.mapProjectionMethod)) },
  { cmd := .field 34 (.one 173 (.enumI16 E.mapTilingMethod)) },
  { cmd := .field 35 (.one 174 (.enumI16 E.mapAutoTransformMethod)) },
  { cmd := .field 36 (.many 49 .f64) },
  { cmd := .field 38 (.one 140 .f64) },
  { cmd := .field 39 (.one 141 .f64) },
  { cmd := .field 40 (.one 175 .asI16) },
  { cmd := .field 41 (.one 7 .str) },
  { cmd := .field 42 (.one 176 (.enumI16 E.mapProjectionMethod)) },
  { cmd := .field 43 (.one 177 (.enumI16 E.mapTilingMethod)) },
  { cmd := .field 44 (.one 178 (.enumI16 E.mapAutoTransformMethod)) },
  { cmd := .field 45 (.many 142 .f64) },
  { cmd := .field 47 (.one 143 .f64) },
  { cmd := .field 48 (.one 179 .asI16) },
  { cmd := .field 49 (.one 8 .str) },
  { cmd := .field 50 (.one 270 (.enumI16 E.mapProjectionMethod)) },
  { cmd := .field 51 (.one 271 (.enumI16 E.mapTilingMethod)) },
  { cmd := .field 52 (.one 272 (.enumI16 E.mapAutoTransformMethod)) },
  { cmd := .field 53 (.many 144 .f64) },
  { cmd := .field 55 (.one 145 .f64) },
  { cmd := .field 56 (.one 146 .f64) },
  { cmd := .field 57 (.one 273 .asI16) },
  { cmd := .field 58 (.one 9 .str) },
  { cmd := .field 59 (.one 274 (.enumI16 E.mapProjectionMethod)) },
  { cmd := .field 60 (.one 275 (.enumI16 E.mapTilingMethod)) },
  { cmd := .field 61 (.one 276 (.enumI16 E.mapAutoTransformMethod)) },
  { cmd := .field 62 (.many 147 .f64) },
  { cmd := .field 64 (.one 460 .f64), min := (some .r2007) },
  { cmd := .field 65 (.one 461 .f64), min := (some .r2007) },
  { cmd := .field 66 (.one 462 .f64), min := (some .r2007) },
  { cmd := .field 67 (.one 463 .f64), min := (some .r2007) },
  { cmd := .field 68 (.one 290 .bool), min := (some .r2007) },
  { cmd := .field 69 (.one 464 .f64), min := (some .r2007) },
  { cmd := .field 70 (.one 270 .i16), min := (some .r2007) },
  { cmd := .field 71 (.one 271 .i16), min := (some .r2007) },
  { cmd := .field 72 (.one 465 .f64), min := (some .r2007) },
  { cmd := .field 73 (.one 42 .f64), min := (some .r2007) },
  { cmd := .field 74 (.one 72 .asI16), min := (some .r2007) },
  { cmd := .field 75 (.one 3 .str), min := (some .r2007) },
  { cmd := .field 76 (.one 73 (.enumI16 E.mapProjectionMethod)), min := (some .r2007) },
  { cmd := .field 77 (.one 74 (.enumI16 E.mapTilingMethod)), min := (some .r2007) },
  { cmd := .field 78 (.one 75 (.enumI16 E.mapAutoTransformMethod)), min := (some .r2007) },
  { cmd := .field 79 (.many 43 .f64) },
  { cmd := .field 81 (.one 293 .bool), min := (some .r2007) },
  { cmd := .field 82 (.one 272 .i16), min := (some .r2007) },
  { cmd := .field 83 (.one 273 .i16), min := (some .r2007) },
  { cmd := .field 84 (.one 300 .str), min := (some .r2007) },
  { cmd := .field 85 (.one 291 .bool), min := (some .r2007) },
  { cmd := .field 86 (.one 271 .i16), min := (some .r2007) },
  { cmd := .field 87 (.one 469 .f64), min := (some .r2007) },
  { cmd := .field 88 (.one 301 .str), min := (some .r2007) },
  { cmd := .field 89 (.one 292 .bool), min := (some .r2007) },
  { cmd := .field 90 (.one 62 .i16), min := (some .r2007) },
  { cmd := .field 91 (.one 420 .i32), min := (some .r2007) },
  { cmd := .field 92 (.one 430 .str), min := (some .r2007) },
  { cmd := .field 93 (.one 270 .i16), min := (some .r2007) },
  { cmd := .field 95 (.one 148 .f64), min := (some .r2010) },
  { cmd := .field 96 (.one 90 .i32), min := (some .r2010) },
  { cmd := .field 97 (.one 468 .f64), min := (some .r2010) },
  { cmd := .field 98 (.one 93 .i32), min := (some .r2010) },
  { cmd := .field 99 (.one 94 .i32), min := (some .r2010) }]

/-- Fields of `MLeaderStyle`. -/
def Obj.mLeaderStyleSpec : List Decl := [
  /- 2 content_type -/ ⟨.i16, (0#16 : BitVec 16)⟩,
  /- 3 draw_m_leader_order_type -/ ⟨.i16, (0#16 : BitVec 16)⟩,
  /- 4 draw_leader_order_type -/ ⟨.i16, (0#16 : BitVec 16)⟩,
  /- 5 max_leader_segment_count -/ ⟨.i32, (0#32 : BitVec 32)⟩,
  /- 6 first_segment_angle_constraint -/ ⟨.f64, (⟨0x0000000000000000#64⟩ : F64)⟩,
  /- 7 second_segment_angle_constraint -/ ⟨.f64, (⟨0x0000000000000000#64⟩ : F64)⟩,
  /- 8 leader_line_type -/ ⟨.i16, (0#16 : BitVec 16)⟩,
  /- 9 leader_line_color -/ ⟨.i32, (0#32 : BitVec 32)⟩,
  /- 10 __line_leader_type_handle -/ ⟨.handle, (0#64 : Handle)⟩,
  /- 11 leader_line_weight -/ ⟨.i32, (0#32 : BitVec 32)⟩,
  /- 12 enable_landing -/ ⟨.bool, (true : Bool)⟩,
  /- 13 landing_gap -/ ⟨.f64, (⟨0x0000000000000000#64⟩ : F64)⟩,
  /- 14 enable_dogleg -/ ⟨.bool, (true : Bool)⟩,
  /- 15 dogleg_length -/ ⟨.f64, (⟨0x0000000000000000#64⟩ : F64)⟩,
  /- 16 m_leader_style_description -/ ⟨.str, ([] : Str)⟩,
  /- 17 __arrowhead_handle -/ ⟨.handle, (0#64 : Handle)⟩,
  /- 18 arrowhead_size -/ ⟨.f64, (⟨0x0000000000000000#64⟩ : F64)⟩,
  /- 19 default_m_text_contents -/ ⟨.str, ([] : Str)⟩,
  /- 20 __m_text_style_handle -/ ⟨.handle, (0#64 : Handle)⟩,
  /- 21 text_left_attachment_type -/ ⟨.i16, (0#16 : BitVec 16)⟩,
  /- 22 text_angle_type -/ ⟨.i16, (0#16 : BitVec 16)⟩,
  /- 23 text_alignment_type -/ ⟨.i16, (0#16 : BitVec 16)⟩,
  /- 24 text_right_attachment_type -/ ⟨.i16, (0#16 : BitVec 16)⟩,
  /- 25 text_color -/ ⟨.i32, (0#32 : BitVec 32)⟩,
  /- 26 text_height -/ ⟨.f64, (⟨0x0000000000000000#64⟩ : F64)⟩,
  /- 27 enable_frame_text -/ ⟨.bool, (true : Bool)⟩,
  /- 28 always_align_text_left -/ ⟨.bool, (true : Bool)⟩,
  /- 29 align_gap -/ ⟨.f64, (⟨0x0000000000000000#64⟩ : F64)⟩,
  /- 30 __block_content_handle -/ ⟨.handle, (0#64 : Handle)⟩,
  /- 31 block_content_color -/ ⟨.i32, (0#32 : BitVec 32)⟩,
  /- 32 block_content_x_scale -/ ⟨.f64, (⟨0x3ff0000000000000#64⟩ : F64)⟩,
  /- 33 block_content_y_scale -/ ⟨.f64, (⟨0x3ff0000000000000#64⟩ : F64)⟩,
  /- 34 block_content_z_scale -/ ⟨.f64, (⟨0x3ff0000000000000#64⟩ : F64)⟩,
  /- 35 enable_block_content_scale -/ ⟨.bool, (true : Bool)⟩,
  /- 36 block_content_rotation -/ ⟨.f64, (⟨0x0000000000000000#64⟩ : F64)⟩,
  /- 37 enable_block_content_rotation -/ ⟨.bool, (true : Bool)⟩,
  /- 38 block_content_connection_type -/ ⟨.i16, (0#16 : BitVec 16)⟩,
  /- 39 scale -/ ⟨.f64, (⟨0x3ff0000000000000#64⟩ : F64)⟩,
  /- 40 overwrite_field_value -/ ⟨.bool, (false : Bool)⟩,
  /- 41 is_annotative -/ ⟨.bool, (true : Bool)⟩,
  /- 42 break_gap_size -/ ⟨.f64, (⟨0x0000000000000000#64⟩ : F64)⟩,
  /- 43 text_attachment_direction -/ ⟨.enum E.textAttachmentDirection, (⟨0, by decide⟩ : Fin (List.length E.textAttachmentDirection))⟩,
  /- 44 bottom_text_attachment_direction -/ ⟨.enum E.bottomTextAttachmentDirection, (⟨0, by decide⟩ : Fin (List.length E.bottomTextAttachmentDirection))⟩,
  /- 45 top_text_attachment_direction -/ ⟨.enum E.topTextAttachmentDirection, (⟨0, by decide⟩ : Fin (List.length E.topTextAttachmentDirection))⟩]

/-- Match arms of the reader of `MLeaderStyle`. -/
def Obj.mLeaderStyleArms : List (Arm (objectDecls ++ Obj.mLeaderStyleSpec)) := [
  ⟨170, .on 2 (.set .i16)⟩,
  ⟨171, .on 3 (.set .i16)⟩,
  ⟨172, .on 4 (.set .i16)⟩,
  ⟨90, .on 5 (.set .i32)⟩,
  ⟨40, .on 6 (.set .f64)⟩,
  ⟨41, .on 7 (.set .f64)⟩,
  ⟨173, .on 8 (.set .i16)⟩,
  ⟨91, .on 9 (.set .i32)⟩,
  ⟨340, .on 10 (.set .handle)⟩,
  ⟨92, .on 11 (.set .i32)⟩,
  ⟨290, .on 12 (.set .bool)⟩,
  ⟨42, .on 13 (.set .f64)⟩,
  ⟨291, .on 14 (.set .bool)⟩,
  ⟨43, .on 15 (.set .f64)⟩,
  ⟨3, .on 16 (.set .str)⟩,
  ⟨341, .on 17 (.set .handle)⟩,
  ⟨44, .on 18 (.set .f64)⟩,
  ⟨300, .on 19 (.set .str)⟩,
  ⟨342, .on 20 (.set .handle)⟩,
  ⟨174, .on 21 (.set .i16)⟩,
  ⟨175, .on 22 (.set .i16)⟩,
  ⟨176, .on 23 (.set .i16)⟩,
  ⟨178, .on 24 (.set .i16)⟩,
  ⟨93, .on 25 (.set .i32)⟩,
  ⟨45, .on 26 (.set .f64)⟩,
  ⟨292, .on 27 (.set .bool)⟩,
  ⟨297, .on 28 (.set .bool)⟩,
  ⟨46, .on 29 (.set .f64)⟩,
  ⟨343, .on 30 (.set .handle)⟩,
  ⟨94, .on 31 (.set .i32)⟩,
  ⟨47, .on 32 (.set .f64)⟩,
  ⟨49, .on 33 (.set .f64)⟩,
  ⟨140, .on 34 (.set .f64)⟩,
  ⟨293, .on 35 (.set .bool)⟩,
  ⟨141, .on 36 (.set .f64)⟩,
  ⟨294, .on 37 (.set .bool)⟩,
  ⟨177, .on 38 (.set .i16)⟩,
  ⟨142, .on 39 (.set .f64)⟩,
  ⟨295, .on 40 (.set .bool)⟩,
  ⟨296, .on 41 (.set .bool)⟩,
  ⟨143, .on 42 (.set .f64)⟩,
  ⟨271, .on 43 (.set (.enumI16 E.textAttachmentDirection ⟨0, by decide⟩))⟩,
  ⟨272, .on 44 (.set (.enumI16 E.bottomTextAttachmentDirection ⟨0, by decide⟩))⟩,
  ⟨273, .on 45 (.set (.enumI16 E.topTextAttachmentDirection ⟨0, by decide⟩))⟩] ++ objectArms Obj.mLeaderStyleSpec

/-- The specific write statements of `MLeaderStyle`. -/
def Obj.mLeaderStyleCmds : List (GCmd (objectDecls ++ Obj.mLeaderStyleSpec)) := [
  { cmd := .const (.newStr 100 str!"AcDbMLeaderStyle") },
  { cmd := .field 2 (.one 170 .i16) },
  { cmd := .field 3 (.one 171 .i16) },
  { cmd := .field 4 (.one 172 .i16) },
  { cmd := .field 5 (.one 90 .i32) },
  { cmd := .field 6 (.one 40 .f64) },
  { cmd := .field 7 (.one 41 .f64) },
  { cmd := .field 8 (.one 173 .i16) },
  { cmd := .field 9 (.one 91 .i32) },
  { cmd := .field 10 (.one 340 .handle) },
  { cmd := .field 11 (.one 92 .i32) },
  { cmd := .field 12 (.one 290 .bool) },
  { cmd := .field 13 (.one 42 .f64) },
  { cmd := .field 14 (.one 291 .bool) },
  { cmd := .field 15 (.one 43 .f64) },
  { cmd := .field 16 (.one 3 .str) },
  { cmd := .field 17 (.one 341 .handle) },
  { cmd := .field 18 (.one 44 .f64) },
  { cmd := .field 19 (.one 300 .str) },
  { cmd := .field 20 (.one 342 .handle) },
  { cmd := .field 21 (.one 174 .i16) },
  { cmd := .field 22 (.one 175 .i16) },
  { cmd := .field 23 (.one 176 .i16) },
  { cmd := .field 24 (.one 178 .i16) },
  { cmd := .field 25 (.one 93 .i32) },
  { cmd := .field 26 (.one 45 .f64) },
  { cmd := .field 27 (.one 292 .bool) },
  { cmd := .field 28 (.one 297 .bool) },
  { cmd := .field 29 (.one 46 .f64) },
  { cmd := .field 30 (.one 343 .handle) },
  { cmd := .field 31 (.one 94 .i32) },
  { cmd := .field 32 (.one 47 .f64) },
  { cmd := .field 33 (.one 49 .f64) },
  { cmd := .field 34 (.one 140 .f64) },
  { cmd := .field 35 (.one 293 .bool) },
  { cmd := .field 36 (.one 141 .f64) },
  { cmd := .field 37 (.one 294 .bool) },
  { cmd := .field 38 (.one 177 .i16) },
  { cmd := .field 39 (.one 142 .f64) },
  { cmd := .field 40 (.one 295 .bool) },
  { cmd := .field 41 (.one 296 .bool) },
  { cmd := .field 42 (.one 143 .f64) },
  { cmd := .field 43 (.one 271 (.enumI16 E.textAttachmentDirection)) },
  { cmd := .field 44 (.one 272 (.enumI16 E.bottomTextAttachmentDirection)) },
  { cmd := .field 45 (.one 273 (.enumI16 E.topTextAttachmentDirection)) }]

/-- Fields of `MLineStyle`. -/
def Obj.mLineStyleSpec : List Decl := [
  /- 2 style_name -/ ⟨.str, ([] : Str)⟩,
  /- 3 __flags -/ ⟨.i32, (0#32 : BitVec 32)⟩,
  /- 4 description -/ ⟨.str, ([] : Str)⟩,
  /- 5 fill_color -/ ⟨.i16, (256#16 : I16)⟩,
  /- 6 start_angle -/ ⟨.f64, (⟨0x4056800000000000#64⟩ : F64)⟩,
  /- 7 end_angle -/ ⟨.f64, (⟨0x4056800000000000#64⟩ : F64)⟩,
  /- 8 __element_count -/ ⟨.i32, (0#32 : BitVec 32)⟩,
  /- 9 __element_offsets -/ ⟨.list .f64, ([] : List (F64))⟩,
  /- 10 __element_colors -/ ⟨.list .i16, ([] : List (I16))⟩,
  /- 11 __element_line_types -/ ⟨.list .str, ([] : List (Str))⟩]

/-- Match arms of the hand-written reader of `MLineStyle` (src/object.rs:1074-). -/
def Obj.mLineStyleArms (m : OMode) : List (Arm (objectDecls ++ Obj.mLineStyleSpec)) := [
  ⟨2, .on 2 (.set .str)⟩,
  ⟨3, .on 4 (.set .str)⟩,
  ⟨6, .on 11 (.push .str)⟩,
  ⟨49, .on 9 (.push .f64)⟩,
  ⟨51, .on 6 (.set .f64)⟩,
  ⟨52, .on 7 (.set .f64)⟩,
  ⟨62, bif m.a then .on 10 (.push .i16) else .on 5 (.set .i16)⟩,
  ⟨70, .on 3 (.set .i32OfI16)⟩,
  ⟨71, .on 8 (.set .i32OfI16)⟩] ++ objectArms Obj.mLineStyleSpec

/-- The specific write statements of `MLineStyle`. -/
def Obj.mLineStyleCmds : List (GCmd (objectDecls ++ Obj.mLineStyleSpec)) := [
  { cmd := .const (.newStr 100 str!"AcDbMlineStyle") },
  { cmd := .field 2 (.one 2 .str) },
  { cmd := .field 3 (.one 70 .i32AsI16) },
  { cmd := .field 4 (.one 3 .str) },
  { cmd := .field 5 (.one 62 .i16) },
  { cmd := .field 6 (.one 51 .f64) },
  { cmd := .field 7 (.one 52 .f64) }]

/-- `ObjectPointer` has no fields. -/
def Obj.objectPointerSpec : List Decl := []

/-- Match arms of the reader of `ObjectPointer`. -/
def Obj.objectPointerArms : List (Arm (objectDecls ++ Obj.objectPointerSpec)) := objectArms Obj.objectPointerSpec

/-- `ObjectPointer` writes nothing specific. -/
def Obj.objectPointerCmds : List (GCmd (objectDecls ++ Obj.objectPointerSpec)) := []

/-- Fields of `PlotSettings`. -/
def Obj.plotSettingsSpec : List Decl := [
  /- 2 page_setup_name -/ ⟨.str, ([] : Str)⟩,
  /- 3 printer_name -/ ⟨.str, ([] : Str)⟩,
  /- 4 paper_size -/ ⟨.str, ([] : Str)⟩,
  /- 5 plot_view_name -/ ⟨.str, ([] : Str)⟩,
  /- 6 unprintable_left_margin_size -/ ⟨.f64, (⟨0x0000000000000000#64⟩ : F64)⟩,
  /- 7 unprintable_bottom_margin_size -/ ⟨.f64, (⟨0x0000000000000000#64⟩ : F64)⟩,
  /- 8 unprintable_right_margin_size -/ ⟨.f64, (⟨0x0000000000000000#64⟩ : F64)⟩,
  /- 9 unprintable_top_margin_size -/ ⟨.f64, (⟨0x0000000000000000#64⟩ : F64)⟩,
  /- 10 paper_width -/ ⟨.f64, (⟨0x0000000000000000#64⟩ : F64)⟩,
  /- 11 paper_height -/ ⟨.f64, (⟨0x0000000000000000#64⟩ : F64)⟩,
  /- 12 plot_origin_x_value -/ ⟨.f64, (⟨0x0000000000000000#64⟩ : F64)⟩,
  /- 13 plot_origin_y_value -/ ⟨.f64, (⟨0x0000000000000000#64⟩ : F64)⟩,
  /- 14 plot_window_lower_left_x_value -/ ⟨.f64, (⟨0x0000000000000000#64⟩ : F64)⟩,
  /- 15 plot_window_lower_left_y_value -/ ⟨.f64, (⟨0x0000000000000000#64⟩ : F64)⟩,
  /- 16 plot_window_upper_right_x_value -/ ⟨.f64, (⟨0x0000000000000000#64⟩ : F64)⟩,
  /- 17 plot_window_upper_right_y_value -/ ⟨.f64, (⟨0x0000000000000000#64⟩ : F64)⟩,
  /- 18 custom_print_scale_numerator -/ ⟨.f64, (⟨0x0000000000000000#64⟩ : F64)⟩,
  /- 19 custom_print_scale_denominator -/ ⟨.f64, (⟨0x0000000000000000#64⟩ : F64)⟩,
  /- 20 plot_layout_flags -/ ⟨.i32, (0#32 : BitVec 32)⟩,
  /- 21 plot_paper_units -/ ⟨.enum E.plotPaperUnits, (⟨0, by decide⟩ : Fin (List.length E.plotPaperUnits))⟩,
  /- 22 plot_rotation -/ ⟨.enum E.plotRotation, (⟨0, by decide⟩ : Fin (List.length E.plotRotation))⟩,
  /- 23 plot_type -/ ⟨.enum E.plotType, (⟨1, by decide⟩ : Fin (List.length E.plotType))⟩,
  /- 24 current_style_sheet -/ ⟨.str, ([] : Str)⟩,
  /- 25 standard_scale -/ ⟨.enum E.standardScale, (⟨0, by decide⟩ : Fin (List.length E.standardScale))⟩,
  /- 26 shade_plot_mode -/ ⟨.enum E.shadePlotMode, (⟨0, by decide⟩ : Fin (List.length E.shadePlotMode))⟩,
  /- 27 shade_plot_resolution_level -/ ⟨.enum E.shadePlotResolutionLevel, (⟨2, by decide⟩ : Fin (List.length E.shadePlotResolutionLevel))⟩,
  /- 28 shade_plot_custom_dpi -/ ⟨.i32, (100#32 : BitVec 32)⟩,
  /- 29 standard_scale_value -/ ⟨.f64, (⟨0x3ff0000000000000#64⟩ : F64)⟩,
  /- 30 paper_image_origin_x -/ ⟨.f64, (⟨0x0000000000000000#64⟩ : F64)⟩,
  /- 31 paper_image_origin_y -/ ⟨.f64, (⟨0x0000000000000000#64⟩ : F64)⟩,
  /- 32 __shade_plot_object_handle -/ ⟨.handle, (0#64 : Handle)⟩]

/-- Match arms of the reader of `PlotSettings`. -/
def Obj.plotSettingsArms : List (Arm (objectDecls ++ Obj.plotSettingsSpec)) := [
  ⟨1, .on 2 (.set .str)⟩,
  ⟨2, .on 3 (.set .str)⟩,
  ⟨4, .on 4 (.set .str)⟩,
  ⟨6, .on 5 (.set .str)⟩,
  ⟨40, .on 6 (.set .f64)⟩,
  ⟨41, .on 7 (.set .f64)⟩,
  ⟨42, .on 8 (.set .f64)⟩,
  ⟨43, .on 9 (.set .f64)⟩,
  ⟨44, .on 10 (.set .f64)⟩,
  ⟨45, .on 11 (.set .f64)⟩,
  ⟨46, .on 12 (.set .f64)⟩,
  ⟨47, .on 13 (.set .f64)⟩,
  ⟨48, .on 14 (.set .f64)⟩,
  ⟨49, .on 15 (.set .f64)⟩,
  ⟨140, .on 16 (.set .f64)⟩,
  ⟨141, .on 17 (.set .f64)⟩,
  ⟨142, .on 18 (.set .f64)⟩,
  ⟨143, .on 19 (.set .f64)⟩,
  ⟨70, .on 20 (.set .i32OfI16)⟩,
  ⟨72, .on 21 (.set (.enumI16 E.plotPaperUnits ⟨0, by decide⟩))⟩,
  ⟨73, .on 22 (.set (.enumI16 E.plotRotation ⟨0, by decide⟩))⟩,
  ⟨74, .on 23 (.set (.enumI16 E.plotType ⟨1, by decide⟩))⟩,
  ⟨7, .on 24 (.set .str)⟩,
  ⟨75, .on 25 (.set (.enumI16 E.standardScale ⟨0, by decide⟩))⟩,
  ⟨76, .on 26 (.set (.enumI16 E.shadePlotMode ⟨0, by decide⟩))⟩,
  ⟨77, .on 27 (.set (.enumI16 E.shadePlotResolutionLevel ⟨2, by decide⟩))⟩,
  ⟨78, .on 28 (.set .i32OfI16)⟩,
  ⟨147, .on 29 (.set .f64)⟩,
  ⟨148, .on 30 (.set .f64)⟩,
  ⟨149, .on 31 (.set .f64)⟩,
  ⟨333, .on 32 (.set .handle)⟩] ++ objectArms Obj.plotSettingsSpec

/-- The specific write statements of `PlotSettings`. -/
def Obj.plotSettingsCmds : List (GCmd (objectDecls ++ Obj.plotSettingsSpec)) := [
  { cmd := .const (.newStr 100 str!"AcDbPlotSettings") },
  { cmd := .field 2 (.one 1 .str) },
  { cmd := .field 3 (.one 2 .str) },
  { cmd := .field 4 (.one 4 .str) },
  { cmd := .field 5 (.one 6 .str) },
  { cmd := .field 6 (.one 40 .f64) },
  { cmd := .field 7 (.one 41 .f64) },
  { cmd := .field 8 (.one 42 .f64) },
  { cmd := .field 9 (.one 43 .f64) },
  { cmd := .field 10 (.one 44 .f64) },
  { cmd := .field 11 (.one 45 .f64) },
  { cmd := .field 12 (.one 46 .f64) },
  { cmd := .field 13 (.one 47 .f64) },
  { cmd := .field 14 (.one 48 .f64) },
  { cmd := .field 15 (.one 49 .f64) },
  { cmd := .field 16 (.one 140 .f64) },
  { cmd := .field 17 (.one 141 .f64) },
  { cmd := .field 18 (.one 142 .f64) },
  { cmd := .field 19 (.one 143 .f64) },
  { cmd := .field 20 (.one 70 .i32AsI16) },
  { cmd := .field 21 (.one 72 (.enumI16 E.plotPaperUnits)) },
  { cmd := .field 22 (.one 73 (.enumI16 E.plotRotation)) },
  { cmd := .field 23 (.one 74 (.enumI16 E.plotType)) },
  { cmd := .field 24 (.one 7 .str) },
  { cmd := .field 25 (.one 75 (.enumI16 E.standardScale)) },
  { cmd := .field 26 (.one 76 (.enumI16 E.shadePlotMode)), min := (some .r2004) },
  { cmd := .field 27 (.one 77 (.enumI16 E.shadePlotResolutionLevel)), min := (some .r2004) },
  { cmd := .field 28 (.one 78 .i32AsI16), min := (some .r2004) },
  { cmd := .field 29 (.one 147 .f64) },
  { cmd := .field 30 (.one 148 .f64) },
  { cmd := .field 31 (.one 149 .f64) },
  { cmd := .field 32 (.one 333 .handle) }]

/-- Fields of `RapidRTRenderEnvironment`. -/
def Obj.rapidRTRenderEnvironmentSpec : List Decl := [
  /- 2 subclass_version -/ ⟨.i32, (0#32 : BitVec 32)⟩,
  /- 3 is_enabled -/ ⟨.bool, (true : Bool)⟩,
  /- 4 image_based_lignting_map_file_name -/ ⟨.str, ([] : Str)⟩,
  /- 5 rotation_angle -/ ⟨.f64, (⟨0x0000000000000000#64⟩ : F64)⟩,
  /- 6 is_map_as_background -/ ⟨.bool, (true : Bool)⟩,
  /- 7 __custom_background_handle -/ ⟨.handle, (0#64 : Handle)⟩]

/-- Match arms of the reader of `RapidRTRenderEnvironment`. -/
def Obj.rapidRTRenderEnvironmentArms : List (Arm (objectDecls ++ Obj.rapidRTRenderEnvironmentSpec)) := [
  ⟨90, .on 2 (.set .i32)⟩,
  ⟨290, .on 3 (.set .bool)⟩,
  ⟨1, .on 4 (.set .str)⟩,
  ⟨40, .on 5 (.set .f64)⟩,
  ⟨340, .on 7 (.set .handle)⟩] ++ objectArms Obj.rapidRTRenderEnvironmentSpec

/-- The specific write statements of `RapidRTRenderEnvironment`. -/
def Obj.rapidRTRenderEnvironmentCmds : List (GCmd (objectDecls ++ Obj.rapidRTRenderEnvironmentSpec)) := [
  { cmd := .const (.newStr 100 str!"AcDbIBLBackground") },
  { cmd := .field 2 (.one 90 .i32) },
  { cmd := .field 3 (.one 290 .bool) },
  { cmd := .field 4 (.one 1 .str) },
  { cmd := .field 5 (.one 40 .f64) },
  { cmd := .field 6 (.one 290 .bool) },
  { cmd := .field 7 (.one 340 .handle) }]

/-- Fields of `RapidRenderSettings`. -/
def Obj.rapidRenderSettingsSpec : List Decl := [
  /- 2 subclass_version -/ ⟨.i32, (0#32 : BitVec 32)⟩,
  /- 3 render_preset_name -/ ⟨.str, ([] : Str)⟩,
  /- 4 are_materials_enabled -/ ⟨.bool, (true : Bool)⟩,
  /- 5 is_texture_sampling_enabled -/ ⟨.bool, (true : Bool)⟩,
  /- 6 are_back_faces_enabled -/ ⟨.bool, (true : Bool)⟩,
  /- 7 are_shadows_enabled -/ ⟨.bool, (true : Bool)⟩,
  /- 8 preview_image_file_name -/ ⟨.str, ([] : Str)⟩,
  /- 9 render_preset_description -/ ⟨.str, ([] : Str)⟩,
  /- 10 display_index -/ ⟨.i32, (0#32 : BitVec 32)⟩,
  /- 11 is_predefined_render_present -/ ⟨.bool, (true : Bool)⟩,
  /- 12 render_duration -/ ⟨.enum E.renderDuration, (⟨0, by decide⟩ : Fin (List.length E.renderDuration))⟩,
  /- 13 render_level_count_imit -/ ⟨.i32, (0#32 : BitVec 32)⟩,
  /- 14 render_time_limit -/ ⟨.i32, (0#32 : BitVec 32)⟩,
  /- 15 render_accuracy -/ ⟨.enum E.renderAccuracy, (⟨0, by decide⟩ : Fin (List.length E.renderAccuracy))⟩,
  /- 16 sampling_filter -/ ⟨.enum E.samplingFilterType, (⟨0, by decide⟩ : Fin (List.length E.samplingFilterType))⟩,
  /- 17 filter_width -/ ⟨.f64, (⟨0x3ff0000000000000#64⟩ : F64)⟩,
  /- 18 filter_height -/ ⟨.f64, (⟨0x3ff0000000000000#64⟩ : F64)⟩]

/-- Match arms of the reader of `RapidRenderSettings`. -/
def Obj.rapidRenderSettingsArms : List (Arm (objectDecls ++ Obj.rapidRenderSettingsSpec)) := [
  ⟨90, .on 2 (.set .i32)⟩,
  ⟨1, .on 3 (.set .str)⟩,
  ⟨290, .on 4 (.set .bool)⟩,
  ⟨70, .on 12 (.set (.enumI16 E.renderDuration ⟨0, by decide⟩))⟩,
  ⟨40, .on 17 (.set .f64)⟩] ++ objectArms Obj.rapidRenderSettingsSpec

/-- The specific write statements of `RapidRenderSettings`. -/
def Obj.rapidRenderSettingsCmds : List (GCmd (objectDecls ++ Obj.rapidRenderSettingsSpec)) := [
  { cmd := .const (.newStr 100 str!"AcDbRenderSettings") },
  { cmd := .field 2 (.one 90 .i32) },
  { cmd := .field 3 (.one 1 .str) },
  { cmd := .field 4 (.one 290 .bool) },
  { cmd := .field 5 (.one 290 .bool) },
  { cmd := .field 6 (.one 290 .bool) },
  { cmd := .field 7 (.one 290 .bool) },
  { cmd := .field 8 (.one 1 .str) },
  { cmd := .field 9 (.one 1 .str) },
  { cmd := .field 10 (.one 90 .i32) },
  { cmd := .field 11 (.one 290 .bool) },
  { cmd := .const (.newStr 100 str!"AcDbRapidRTRenderSettings") },
  { cmd := .field 2 (.one 90 .i32) },
  { cmd := .field 12 (.one 70 (.enumI16 E.renderDuration)) },
  { cmd := .field 13 (.one 90 .i32) },
  { cmd := .field 14 (.one 90 .i32) },
  { cmd := .field 15 (.one 70 (.enumI16 E.renderAccuracy)) },
  { cmd := .field 16 (.one 70 (.enumI16 E.samplingFilterType)) },
  { cmd := .field 17 (.one 40 .f64) },
  { cmd := .field 18 (.one 40 .f64) }]

/-- Fields of `RasterVariables`. -/
def Obj.rasterVariablesSpec : List Decl := [
  /- 2 class_version -/ ⟨.i32, (0#32 : BitVec 32)⟩,
  /- 3 is_display_frame_image -/ ⟨.bool, (false : Bool)⟩,
  /- 4 is_high_display_quality -/ ⟨.bool, (false : Bool)⟩,
  /- 5 image_units -/ ⟨.enum E.rasterImageUnits, (⟨0, by decide⟩ : Fin (List.length E.rasterImageUnits))⟩]

/-- Match arms of the reader of `RasterVariables`. -/
def Obj.rasterVariablesArms : List (Arm (objectDecls ++ Obj.rasterVariablesSpec)) := [
  ⟨90, .on 2 (.set .i32)⟩,
  ⟨70, .on 3 (.set .asBool)⟩,
  ⟨71, .on 4 (.set .asBool)⟩,
  ⟨72, .on 5 (.set (.enumI16 E.rasterImageUnits ⟨0, by decide⟩))⟩] ++ objectArms Obj.rasterVariablesSpec

/-- The specific write statements of `RasterVariables`. -/
def Obj.rasterVariablesCmds : List (GCmd (objectDecls ++ Obj.rasterVariablesSpec)) := [
  { cmd := .const (.newStr 100 str!"AcDbRasterVariables") },
  { cmd := .field 2 (.one 90 .i32) },
  { cmd := .field 3 (.one 70 .asI16) },
  { cmd := .field 4 (.one 71 .asI16) },
  { cmd := .field 5 (.one 72 (.enumI16 E.rasterImageUnits)) }]

/-- Fields of `MentalRayRenderSettings`. -/
def Obj.mentalRayRenderSettingsSpec : List Decl := [
  /- 2 class_version_1 -/ ⟨.i32, (1#32 : BitVec 32)⟩,
  /- 3 preset_name -/ ⟨.str, ([] : Str)⟩,
  /- 4 render_materials -/ ⟨.bool, (false : Bool)⟩,
  /- 5 texture_sampling_quality -/ ⟨.i32, (0#32 : BitVec 32)⟩,
  /- 6 render_back_faces -/ ⟨.bool, (false : Bool)⟩,
  /- 7 render_shadows -/ ⟨.bool, (false : Bool)⟩,
  /- 8 preview_file_name -/ ⟨.str, ([] : Str)⟩,
  /- 9 class_version_2 -/ ⟨.i32, (1#32 : BitVec 32)⟩,
  /- 10 minimum_sampling_rate -/ ⟨.i32, (0#32 : BitVec 32)⟩,
  /- 11 maximum_sampling_rate -/ ⟨.i32, (0#32 : BitVec 32)⟩,
  /- 12 sampling_filter_type -/ ⟨.enum E.samplingFilterType, (⟨0, by decide⟩ : Fin (List.length E.samplingFilterType))⟩,
  /- 13 filter_width -/ ⟨.f64, (⟨0x0000000000000000#64⟩ : F64)⟩,
  /- 14 filter_height -/ ⟨.f64, (⟨0x0000000000000000#64⟩ : F64)⟩,
  /- 15 sampling_contrast_color_red -/ ⟨.f64, (⟨0x0000000000000000#64⟩ : F64)⟩,
  /- 16 sampling_contrast_color_green -/ ⟨.f64, (⟨0x0000000000000000#64⟩ : F64)⟩,
  /- 17 sampling_contrast_color_blue -/ ⟨.f64, (⟨0x0000000000000000#64⟩ : F64)⟩,
  /- 18 sampling_contrast_color_alpha -/ ⟨.f64, (⟨0x0000000000000000#64⟩ : F64)⟩,
  /- 19 shadow_mode -/ ⟨.enum E.renderShadowMode, (⟨0, by decide⟩ : Fin (List.length E.renderShadowMode))⟩,
  /- 20 map_shadows -/ ⟨.bool, (false : Bool)⟩,
  /- 21 ray_tracing -/ ⟨.bool, (false : Bool)⟩,
  /- 22 ray_tracing_depth_reflections -/ ⟨.i32, (0#32 : BitVec 32)⟩,
  /- 23 ray_tracing_depth_refractions -/ ⟨.i32, (0#32 : BitVec 32)⟩,
  /- 24 ray_tracing_depth_maximum -/ ⟨.i32, (0#32 : BitVec 32)⟩,
  /- 25 use_global_illumination -/ ⟨.bool, (false : Bool)⟩,
  /- 26 sample_count -/ ⟨.i32, (0#32 : BitVec 32)⟩,
  /- 27 use_global_illumination_radius -/ ⟨.bool, (false : Bool)⟩,
  /- 28 global_illumination_radius -/ ⟨.f64, (⟨0x0000000000000000#64⟩ : F64)⟩,
  /- 29 photons_per_light -/ ⟨.i32, (0#32 : BitVec 32)⟩,
  /- 30 global_illumination_depth_reflections -/ ⟨.i32, (0#32 : BitVec 32)⟩,
  /- 31 global_illumination_depth_refractions -/ ⟨.i32, (0#32 : BitVec 32)⟩,
  /- 32 global_illumination_depth_maximum -/ ⟨.i32, (0#32 : BitVec 32)⟩,
  /- 33 use_final_gather -/ ⟨.bool, (false : Bool)⟩,
  /- 34 final_gather_ray_count -/ ⟨.i32, (0#32 : BitVec 32)⟩,
  /- 35 use_final_gather_minimum_radius -/ ⟨.bool, (false : Bool)⟩,
  /- 36 use_final_gather_maximum_radius -/ ⟨.bool, (false : Bool)⟩,
  /- 37 use_final_gather_pixels -/ ⟨.bool, (false : Bool)⟩,
  /- 38 final_gather_sample_radius_minimum -/ ⟨.f64, (⟨0x0000000000000000#64⟩ : F64)⟩,
  /- 39 final_gather_sample_radius_maximum -/ ⟨.f64, (⟨0x0000000000000000#64⟩ : F64)⟩,
  /- 40 luminance_scale -/ ⟨.f64, (⟨0x3ff0000000000000#64⟩ : F64)⟩,
  /- 41 diagnostic_mode -/ ⟨.enum E.renderDiagnosticMode, (⟨0, by decide⟩ : Fin (List.length E.renderDiagnosticMode))⟩,
  /- 42 diagnostic_grid_mode -/ ⟨.enum E.renderDiagnosticGridMode, (⟨0, by decide⟩ : Fin (List.length E.renderDiagnosticGridMode))⟩,
  /- 43 grid_size -/ ⟨.f64, (⟨0x3ff0000000000000#64⟩ : F64)⟩,
  /- 44 diagnostic_photon_mode -/ ⟨.enum E.diagnosticPhotonMode, (⟨0, by decide⟩ : Fin (List.length E.diagnosticPhotonMode))⟩,
  /- 45 diagnostic_bsp_mode -/ ⟨.enum E.diagnosticBSPMode, (⟨0, by decide⟩ : Fin (List.length E.diagnosticBSPMode))⟩,
  /- 46 export_mi_statistics -/ ⟨.bool, (false : Bool)⟩,
  /- 47 mi_statistics_file_name -/ ⟨.str, ([] : Str)⟩,
  /- 48 tile_size -/ ⟨.i32, (0#32 : BitVec 32)⟩,
  /- 49 tile_order -/ ⟨.enum E.tileOrder, (⟨0, by decide⟩ : Fin (List.length E.tileOrder))⟩,
  /- 50 memory_limit -/ ⟨.i32, (0#32 : BitVec 32)⟩]

/-- Match arms of the reader of `MentalRayRenderSettings`. -/
def Obj.mentalRayRenderSettingsArms : List (Arm (objectDecls ++ Obj.mentalRayRenderSettingsSpec)) := [
  ⟨90, .on 2 (.set .i32)⟩,
  ⟨1, .on 3 (.set .str)⟩,
  ⟨290, .on 4 (.set .bool)⟩,
  ⟨70, .on 12 (.set (.enumI16 E.samplingFilterType ⟨0, by decide⟩))⟩,
  ⟨40, .on 13 (.set .f64)⟩] ++ objectArms Obj.mentalRayRenderSettingsSpec

/-- The specific write statements of `MentalRayRenderSettings`. -/
def Obj.mentalRayRenderSettingsCmds : List (GCmd (objectDecls ++ Obj.mentalRayRenderSettingsSpec)) := [
  { cmd := .const (.newStr 100 str!"AcDbRenderSettings") },
  { cmd := .field 2 (.one 90 .i32) },
  { cmd := .field 3 (.one 1 .str) },
  { cmd := .field 4 (.one 290 .bool) },
  { cmd := .field 5 (.one 90 .i32) },
  { cmd := .field 6 (.one 290 .bool) },
  { cmd := .field 7 (.one 290 .bool) },
  { cmd := .field 8 (.one 1 .str) },
  { cmd := .const (.newStr 100 str!"AcDbMentalRayRenderSettings") },
  { cmd := .field 9 (.one 90 .i32) },
  { cmd := .field 10 (.one 90 .i32) },
  { cmd := .field 11 (.one 90 .i32) },
  { cmd := .field 12 (.one 70 (.enumI16 E.samplingFilterType)) },
  { cmd := .field 13 (.one 40 .f64) },
  { cmd := .field 14 (.one 40 .f64) },
  { cmd := .field 15 (.one 40 .f64) },
  { cmd := .field 16 (.one 40 .f64) },
  { cmd := .field 17 (.one 40 .f64) },
  { cmd := .field 18 (.one 40 .f64) },
  { cmd := .field 19 (.one 70 (.enumI16 E.renderShadowMode)) },
  { cmd := .field 20 (.one 290 .bool) },
  { cmd := .field 21 (.one 290 .bool) },
  { cmd := .field 22 (.one 90 .i32) },
  { cmd := .field 23 (.one 90 .i32) },
  { cmd := .field 24 (.one 90 .i32) },
  { cmd := .field 25 (.one 290 .bool) },
  { cmd := .field 26 (.one 90 .i32) },
  { cmd := .field 27 (.one 290 .bool) },
  { cmd := .field 28 (.one 40 .f64) },
  { cmd := .field 29 (.one 90 .i32) },
  { cmd := .field 30 (.one 90 .i32) },
  { cmd := .field 31 (.one 90 .i32) },
  { cmd := .field 32 (.one 90 .i32) },
  { cmd := .field 33 (.one 290 .bool) },
  { cmd := .field 34 (.one 90 .i32) },
  { cmd := .field 35 (.one 290 .bool) },
  { cmd := .field 36 (.one 290 .bool) },
  { cmd := .field 37 (.one 290 .bool) },
  { cmd := .field 38 (.one 40 .f64) },
  { cmd := .field 39 (.one 40 .f64) },
  { cmd := .field 40 (.one 40 .f64) },
  { cmd := .field 41 (.one 70 (.enumI16 E.renderDiagnosticMode)) },
  { cmd := .field 42 (.one 70 (.enumI16 E.renderDiagnosticGridMode)) },
  { cmd := .field 43 (.one 40 .f64) },
  { cmd := .field 44 (.one 70 (.enumI16 E.diagnosticPhotonMode)) },
  { cmd := .field 45 (.one 70 (.enumI16 E.diagnosticBSPMode)) },
  { cmd := .field 46 (.one 290 .bool) },
  { cmd := .field 47 (.one 1 .str) },
  { cmd := .field 48 (.one 90 .i32) },
  { cmd := .field 49 (.one 70 (.enumI16 E.tileOrder)) },
  { cmd := .field 50 (.one 90 .i32) }]

/-- Fields of `RenderEnvironment`. -/
def Obj.renderEnvironmentSpec : List Decl := [
  /- 2 class_version -/ ⟨.i32, (1#32 : BitVec 32)⟩,
  /- 3 is_fog_enabled -/ ⟨.bool, (false : Bool)⟩,
  /- 4 is_background_fog_enabled -/ ⟨.bool, (false : Bool)⟩,
  /- 5 fog_color_red -/ ⟨.i32, (0#32 : BitVec 32)⟩,
  /- 6 fog_color_green -/ ⟨.i32, (0#32 : BitVec 32)⟩,
  /- 7 fog_color_blue -/ ⟨.i32, (0#32 : BitVec 32)⟩,
  /- 8 near_fog_density_percent -/ ⟨.f64, (⟨0x0000000000000000#64⟩ : F64)⟩,
  /- 9 far_fog_density_percent -/ ⟨.f64, (⟨0x0000000000000000#64⟩ : F64)⟩,
  /- 10 near_clipping_plane_distance_percent -/ ⟨.f64, (⟨0x0000000000000000#64⟩ : F64)⟩,
  /- 11 far_clipping_plane_distance_percent -/ ⟨.f64, (⟨0x3ff0000000000000#64⟩ : F64)⟩,
  /- 12 use_environment_image -/ ⟨.bool, (false : Bool)⟩,
  /- 13 environment_image_file_name -/ ⟨.str, ([] : Str)⟩]

/-- Match arms of the reader of `RenderEnvironment`. -/
def Obj.renderEnvironmentArms : List (Arm (objectDecls ++ Obj.renderEnvironmentSpec)) := [
  ⟨90, .on 2 (.set .i32)⟩,
  ⟨290, .on 3 (.set .bool)⟩,
  ⟨280, .on 5 (.set .i32OfI16)⟩,
  ⟨40, .on 8 (.set .f64)⟩,
  ⟨1, .on 13 (.set .str)⟩] ++ objectArms Obj.renderEnvironmentSpec

/-- The specific write statements of `RenderEnvironment`. -/
def Obj.renderEnvironmentCmds : List (GCmd (objectDecls ++ Obj.renderEnvironmentSpec)) := [
  { cmd := .const (.newStr 100 str!"AcDbRenderEnvironment") },
  { cmd := .field 2 (.one 90 .i32) },
  { cmd := .field 3 (.one 290 .bool) },
  { cmd := .field 4 (.one 290 .bool) },
  { cmd := .field 5 (.one 280 .i32AsI16) },
  { cmd := .field 6 (.one 280 .i32AsI16) },
  { cmd := .field 7 (.one 280 .i32AsI16) },
  { cmd := .field 8 (.one 40 .f64) },
  { cmd := .field 9 (.one 40 .f64) },
  { cmd := .field 10 (.one 40 .f64) },
  { cmd := .field 11 (.one 40 .f64) },
  { cmd := .field 12 (.one 290 .bool) },
  { cmd := .field 13 (.one 1 .str) }]

/-- Fields of `RenderGlobal`. -/
def Obj.renderGlobalSpec : List Decl := [
  /- 2 class_version -/ ⟨.i32, (2#32 : BitVec 32)⟩,
  /- 3 render_procedure -/ ⟨.enum E.renderProcedure, (⟨0, by decide⟩ : Fin (List.length E.renderProcedure))⟩,
  /- 4 render_destination -/ ⟨.enum E.renderDestination, (⟨0, by decide⟩ : Fin (List.length E.renderDestination))⟩,
  /- 5 save_to_file -/ ⟨.bool, (false : Bool)⟩,
  /- 6 save_to_file_name -/ ⟨.str, ([] : Str)⟩,
  /- 7 image_width -/ ⟨.i32, (0#32 : BitVec 32)⟩,
  /- 8 image_height -/ ⟨.i32, (0#32 : BitVec 32)⟩,
  /- 9 use_predefined_presets_first -/ ⟨.bool, (false : Bool)⟩,
  /- 10 use_high_info_level -/ ⟨.bool, (false : Bool)⟩]

/-- Match arms of the reader of `RenderGlobal`. -/
def Obj.renderGlobalArms : List (Arm (objectDecls ++ Obj.renderGlobalSpec)) := [
  ⟨90, .on 2 (.set .i32)⟩,
  ⟨290, .on 5 (.set .bool)⟩,
  ⟨1, .on 6 (.set .str)⟩] ++ objectArms Obj.renderGlobalSpec

/-- The specific write statements of `RenderGlobal`. -/
def Obj.renderGlobalCmds : List (GCmd (objectDecls ++ Obj.renderGlobalSpec)) := [
  { cmd := .const (.newStr 100 str!"AcDbRenderGlobal") },
  { cmd := .field 2 (.one 90 .i32) },
  { cmd := .field 3 (.one 90 (.enumI32 E.renderProcedure)) },
  { cmd := .field 4 (.one 90 (.enumI32 E.renderDestination)) },
  { cmd := .field 5 (.one 290 .bool) },
  { cmd := .field 6 (.one 1 .str) },
  { cmd := .field 7 (.one 90 .i32) },
  { cmd := .field 8 (.one 90 .i32) },
  { cmd := .field 9 (.one 290 .bool) },
  { cmd := .field 10 (.one 290 .bool) }]

/-- Fields of `SectionManager`. -/
def Obj.sectionManagerSpec : List Decl := [
  /- 2 requires_full_update -/ ⟨.bool, (false : Bool)⟩,
  /- 3 __section_count -/ ⟨.i32, (0#32 : BitVec 32)⟩,
  /- 4 __section_entities_handle -/ ⟨.list .handle, ([] : List (Handle))⟩]

/-- Match arms of the reader of `SectionManager`. -/
def Obj.sectionManagerArms : List (Arm (objectDecls ++ Obj.sectionManagerSpec)) := [
  ⟨70, .on 2 (.set .asBool)⟩,
  ⟨90, .on 3 (.set .i32)⟩,
  ⟨330, .on 4 (.push .handle)⟩] ++ objectArms Obj.sectionManagerSpec

/-- The specific write statements of `SectionManager`. -/
def Obj.sectionManagerCmds : List (GCmd (objectDecls ++ Obj.sectionManagerSpec)) := [
  { cmd := .const (.newStr 100 str!"AcDbSectionManager") },
  { cmd := .field 2 (.one 70 .asI16) },
  { cmd := .computed (t := .i32) 90 .i32 (fun r => BitVec.ofNat 32 ((fun a : List Handle => a.length) (r 4))) },
  { cmd := .field 4 (.many 330 .handle) }]

/-- Fields of `SectionSettings`. -/
def Obj.sectionSettingsSpec : List Decl := [
  /- 2 section_type -/ ⟨.i32, (0#32 : BitVec 32)⟩,
  /- 3 is_generation_option -/ ⟨.bool, (false : Bool)⟩,
  /- 4 __source_objects_handle -/ ⟨.list .handle, ([] : List (Handle))⟩,
  /- 5 __destination_object_handle -/ ⟨.handle, (0#64 : Handle)⟩,
  /- 6 destination_file_name -/ ⟨.str, ([] : Str)⟩]

/-- Match arms of the hand-written reader of `SectionSettings` (src/object.rs:1123-). -/
def Obj.sectionSettingsArms : List (Arm (objectDecls ++ Obj.sectionSettingsSpec)) := [
  ⟨90, .on 2 (.set .i32)⟩] ++ objectArms Obj.sectionSettingsSpec

/-- The specific write statements of `SectionSettings`. -/
def Obj.sectionSettingsCmds : List (GCmd (objectDecls ++ Obj.sectionSettingsSpec)) := [
  { cmd := .const (.newStr 100 str!"AcDbSectionSettings") },
  { cmd := .field 2 (.one 90 .i32) }]

/-- Fields of `SortentsTable`. -/
def Obj.sortentsTableSpec : List Decl := [
  /- 2 __entities_handle -/ ⟨.list .handle, ([] : List (Handle))⟩,
  /- 3 __sort_items_handle -/ ⟨.list .handle, ([] : List (Handle))⟩]

/-- Match arms of the hand-written reader of `SortentsTable` (src/object.rs:1147-). -/
def Obj.sortentsTableArms (m : OMode) : List (Arm (objectDecls ++ Obj.sortentsTableSpec)) := [
  ⟨5, bif m.a then .on 3 (.push .handle) else .on 0 (.set .handle)⟩,
  ⟨331, .on 2 (.push .handle)⟩] ++ objectArms Obj.sortentsTableSpec

/-- The specific write statements of `SortentsTable`. -/
def Obj.sortentsTableCmds : List (GCmd (objectDecls ++ Obj.sortentsTableSpec)) := [
  { cmd := .const (.newStr 100 str!"AcDbSortentsTable") },
  { cmd := .field 2 (.many 331 .handle) },
  { cmd := .field 3 (.many 5 .handle) }]

/-- Fields of `SpatialFilter`. -/
def Obj.spatialFilterSpec : List Decl := [
  /- 2 clip_boundary_normal -/ ⟨.point, (⟨(⟨0x0000000000000000#64⟩ : F64), (⟨0x0000000000000000#64⟩ : F64), (⟨0x3ff0000000000000#64⟩ : F64)⟩ : Point)⟩,
  /- 3 clip_boundary_origin -/ ⟨.point, (⟨(⟨0x0000000000000000#64⟩ : F64), (⟨0x0000000000000000#64⟩ : F64), (⟨0x0000000000000000#64⟩ : F64)⟩ : Point)⟩,
  /- 4 is_clip_boundary_enabled -/ ⟨.bool, (false : Bool)⟩,
  /- 5 is_front_clipping_plane -/ ⟨.bool, (true : Bool)⟩,
  /- 6 front_clipping_plane_distance -/ ⟨.f64, (⟨0x0000000000000000#64⟩ : F64)⟩,
  /- 7 is_back_clipping_plane -/ ⟨.bool, (false : Bool)⟩,
  /- 8 back_clipping_plane_distance -/ ⟨.f64, (⟨0x0000000000000000#64⟩ : F64)⟩]

/-- Match arms of the hand-written reader of `SpatialFilter` (src/object.rs:1181-). -/
def Obj.spatialFilterArms : List (Arm (objectDecls ++ Obj.spatialFilterSpec)) := [
  ⟨11, .on 3 (.axis .x)⟩,
  ⟨21, .on 3 (.axis .y)⟩,
  ⟨31, .on 3 (.axis .z)⟩,
  ⟨40, .on 6 (.set .f64)⟩,
  ⟨41, .on 8 (.set .f64)⟩,
  ⟨71, .on 4 (.set .asBool)⟩,
  ⟨72, .on 5 (.set .asBool)⟩,
  ⟨73, .on 7 (.set .asBool)⟩,
  ⟨210, .on 2 (.axis .x)⟩,
  ⟨220, .on 2 (.axis .y)⟩,
  ⟨230, .on 2 (.axis .z)⟩] ++ objectArms Obj.spatialFilterSpec

/-- The specific write statements of `SpatialFilter`, part 1. -/
def Obj.spatialFilterCmds : List (GCmd (objectDecls ++ Obj.spatialFilterSpec)) := [
  { cmd := .const (.newStr 100 str!"AcDbFilter") },
  { cmd := .const (.newStr 100 str!"AcDbSpatialFilter") }]

/-- The specific write statements of `SpatialFilter`, part 2. -/
def Obj.spatialFilterCmds2 : List (GCmd (objectDecls ++ Obj.spatialFilterSpec)) := [
  { cmd := .field 2 (.axes [(.x, 210), (.y, 220), (.z, 230)]) },
  { cmd := .field 3 (.axes [(.x, 11), (.y, 21), (.z, 31)]) },
  { cmd := .field 4 (.one 71 .asI16) },
  { cmd := .field 5 (.one 72 .asI16) },
  { cmd := .field 6 (.one 40 .f64) },
  { cmd := .field 7 (.one 73 .asI16) },
  { cmd := .field 8 (.one 41 .f64) }]

/-- Fields of `SpatialIndex`. -/
def Obj.spatialIndexSpec : List Decl := [
  /- 2 timestamp -/ ⟨.date, (0 : Date)⟩]

/-- Match arms of the reader of `SpatialIndex`. -/
def Obj.spatialIndexArms : List (Arm (objectDecls ++ Obj.spatialIndexSpec)) := [
  ⟨40, .on 2 (.set .date)⟩] ++ objectArms Obj.spatialIndexSpec

/-- The specific write statements of `SpatialIndex`. -/
def Obj.spatialIndexCmds : List (GCmd (objectDecls ++ Obj.spatialIndexSpec)) := [
  { cmd := .const (.newStr 100 str!"AcDbIndex") },
  { cmd := .field 2 (.one 40 .date) },
  { cmd := .const (.newStr 100 str!"AcDbSpatialIndex") }]

/-- Fields of `SunStudy`. -/
def Obj.sunStudySpec : List Decl := [
  /- 2 version -/ ⟨.i32, (0#32 : BitVec 32)⟩,
  /- 3 sun_setup_name -/ ⟨.str, ([] : Str)⟩,
  /- 4 description -/ ⟨.str, ([] : Str)⟩,
  /- 5 output_type -/ ⟨.i16, (0#16 : BitVec 16)⟩,
  /- 6 sheet_set_name -/ ⟨.str, ([] : Str)⟩,
  /- 7 use_subset -/ ⟨.bool, (false : Bool)⟩,
  /- 8 sheet_subset_name -/ ⟨.str, ([] : Str)⟩,
  /- 9 select_dates_from_calendar -/ ⟨.bool, (false : Bool)⟩,
  /- 10 select_range_of_dates -/ ⟨.bool, (false : Bool)⟩,
  /- 11 start_time_seconds_past_midnight -/ ⟨.i32, (0#32 : BitVec 32)⟩,
  /- 12 end_time_seconds_past_midnight -/ ⟨.i32, (0#32 : BitVec 32)⟩,
  /- 13 interval_in_seconds -/ ⟨.i32, (0#32 : BitVec 32)⟩,
  /- 14 __page_setup_wizard_handle -/ ⟨.handle, (0#64 : Handle)⟩,
  /- 15 __view_handle -/ ⟨.handle, (0#64 : Handle)⟩,
  /- 16 __visual_style_handle -/ ⟨.handle, (0#64 : Handle)⟩,
  /- 17 shade_plot_type -/ ⟨.i16, (0#16 : BitVec 16)⟩,
  /- 18 viewports_per_page -/ ⟨.i32, (0#32 : BitVec 32)⟩,
  /- 19 viewport_distribution_row_count -/ ⟨.i32, (0#32 : BitVec 32)⟩,
  /- 20 viewport_distribution_column_count -/ ⟨.i32, (0#32 : BitVec 32)⟩,
  /- 21 spacing -/ ⟨.f64, (⟨0x0000000000000000#64⟩ : F64)⟩,
  /- 22 lock_viewports -/ ⟨.bool, (false : Bool)⟩,
  /- 23 label_viewports -/ ⟨.bool, (false : Bool)⟩,
  /- 24 __text_style_handle -/ ⟨.handle, (0#64 : Handle)⟩]

/-- Match arms of the hand-written reader of `SunStudy` (src/object.rs:1275-). -/
def Obj.sunStudyArms : List (Arm (objectDecls ++ Obj.sunStudySpec)) := [
  ⟨1, .on 3 (.set .str)⟩,
  ⟨2, .on 4 (.set .str)⟩,
  ⟨3, .on 6 (.set .str)⟩,
  ⟨4, .on 8 (.set .str)⟩,
  ⟨40, .on 21 (.set .f64)⟩,
  ⟨70, .on 5 (.set .i16)⟩,
  ⟨74, .on 17 (.set .i16)⟩,
  ⟨75, .on 18 (.set .i32OfI16)⟩,
  ⟨76, .on 19 (.set .i32OfI16)⟩,
  ⟨77, .on 20 (.set .i32OfI16)⟩,
  ⟨90, .on 2 (.set .i32)⟩,
  ⟨93, .on 11 (.set .i32)⟩,
  ⟨94, .on 12 (.set .i32)⟩,
  ⟨95, .on 13 (.set .i32)⟩,
  ⟨290, .on 7 (.set .bool)⟩,
  ⟨291, .on 9 (.set .bool)⟩,
  ⟨292, .on 10 (.set .bool)⟩,
  ⟨293, .on 22 (.set .bool)⟩,
  ⟨294, .on 23 (.set .bool)⟩,
  ⟨340, .on 14 (.set .handle)⟩,
  ⟨341, .on 15 (.set .handle)⟩,
  ⟨342, .on 16 (.set .handle)⟩,
  ⟨343, .on 24 (.set .handle)⟩] ++ objectArms Obj.sunStudySpec

/-- The specific write statements of `SunStudy`, part 1. -/
def Obj.sunStudyCmds : List (GCmd (objectDecls ++ Obj.sunStudySpec)) := [
  { cmd := .const (.newStr 100 str!"AcDbSunStudy") },
  { cmd := .field 2 (.one 90 .i32) },
  { cmd := .field 3 (.one 1 .str) },
  { cmd := .field 4 (.one 2 .str) },
  { cmd := .field 5 (.one 70 .i16) },
  { cmd := .field 6 (.one 3 .str) },
  { cmd := .field 7 (.one 290 .bool) },
  { cmd := .field 8 (.one 4 .str) },
  { cmd := .field 9 (.one 291 .bool) }]

/-- The specific write statements of `SunStudy`, part 2. -/
def Obj.sunStudyCmds2 : List (GCmd (objectDecls ++ Obj.sunStudySpec)) := [
  { cmd := .field 10 (.one 292 .bool) },
  { cmd := .field 11 (.one 93 .i32) },
  { cmd := .field 12 (.one 94 .i32) },
  { cmd := .field 13 (.one 95 .i32) }]

/-- The specific write statements of `SunStudy`, part 3. -/
def Obj.sunStudyCmds3 : List (GCmd (objectDecls ++ Obj.sunStudySpec)) := [
  { cmd := .field 14 (.one 340 .handle) },
  { cmd := .field 15 (.one 341 .handle) },
  { cmd := .field 16 (.one 342 .handle) },
  { cmd := .field 17 (.one 74 .i16) },
  { cmd := .field 18 (.one 75 .i32AsI16) },
  { cmd := .field 19 (.one 76 .i32AsI16) },
  { cmd := .field 20 (.one 77 .i32AsI16) },
  { cmd := .field 21 (.one 40 .f64) },
  { cmd := .field 22 (.one 293 .bool) },
  { cmd := .field 23 (.one 294 .bool) },
  { cmd := .field 24 (.one 343 .handle) }]

/-- Fields of `TableStyle`. -/
def Obj.tableStyleSpec : List Decl := [
  /- 2 version -/ ⟨.enum E.version, (⟨0, by decide⟩ : Fin (List.length E.version))⟩,
  /- 3 description -/ ⟨.str, ([] : Str)⟩,
  /- 4 flow_direction -/ ⟨.enum E.flowDirection, (⟨0, by decide⟩ : Fin (List.length E.flowDirection))⟩,
  /- 5 flags -/ ⟨.i32, (0#32 : BitVec 32)⟩,
  /- 6 horizontal_cell_margin -/ ⟨.f64, (⟨0x3faeb851eb851eb8#64⟩ : F64)⟩,
  /- 7 vertical_cell_margin -/ ⟨.f64, (⟨0x3faeb851eb851eb8#64⟩ : F64)⟩,
  /- 8 is_title_suppressed -/ ⟨.bool, (false : Bool)⟩,
  /- 9 is_column_heading_suppressed -/ ⟨.bool, (false : Bool)⟩]

/-- Match arms of the hand-written reader of `TableStyle` (src/object.rs:1386-). -/
def Obj.tableStyleArms (m : OMode) : List (Arm (objectDecls ++ Obj.tableStyleSpec)) := [
  ⟨3, .on 3 (.set .str)⟩,
  ⟨40, .on 6 (.set .f64)⟩,
  ⟨41, .on 7 (.set .f64)⟩,
  ⟨70, .on 4 (.set (.enumI16 E.flowDirection ⟨0, by decide⟩))⟩,
  ⟨71, .on 5 (.set .i32OfI16)⟩,
  ⟨280, bif m.a then .on 8 (.set .asBool) else .on 2 (.set (.enumI16 E.version ⟨0, by decide⟩))⟩,
  ⟨281, .on 9 (.set .asBool)⟩] ++ objectArms Obj.tableStyleSpec

/-- The specific write statements of `TableStyle`. -/
def Obj.tableStyleCmds : List (GCmd (objectDecls ++ Obj.tableStyleSpec)) := [
  { cmd := .const (.newStr 100 str!"AcDbTableStyle") },
  { cmd := .field 2 (.one 280 (.enumI16 E.version)), min := (some .r2010) },
  { cmd := .field 3 (.one 3 .str) },
  { cmd := .field 4 (.one 70 (.enumI16 E.flowDirection)) },
  { cmd := .field 5 (.one 71 .i32AsI16) },
  { cmd := .field 6 (.one 40 .f64) },
  { cmd := .field 7 (.one 41 .f64) },
  { cmd := .field 8 (.one 280 .asI16) },
  { cmd := .field 9 (.one 281 .asI16) }]

/-- Fields of `UnderlayDefinition`. -/
def Obj.underlayDefinitionSpec : List Decl := [
  /- 2 file_name -/ ⟨.str, ([] : Str)⟩,
  /- 3 name -/ ⟨.str, ([] : Str)⟩]

/-- Match arms of the reader of `UnderlayDefinition`. -/
def Obj.underlayDefinitionArms : List (Arm (objectDecls ++ Obj.underlayDefinitionSpec)) := [
  ⟨1, .on 2 (.set .str)⟩,
  ⟨2, .on 3 (.set .str)⟩] ++ objectArms Obj.underlayDefinitionSpec

/-- The specific write statements of `UnderlayDefinition`. -/
def Obj.underlayDefinitionCmds : List (GCmd (objectDecls ++ Obj.underlayDefinitionSpec)) := [
  { cmd := .const (.newStr 100 str!"AcDbUnderlayDefinition") },
  { cmd := .field 2 (.one 1 .str) },
  { cmd := .field 3 (.one 2 .str) }]

/-- Fields of `VbaProject`. -/
def Obj.vbaProjectSpec : List Decl := [
  /- 2 data -/ ⟨.bytes, ([] : List Byte)⟩,
  /- 3 __hex_data -/ ⟨.list .bytes, ([] : List (List Byte))⟩]

/-- Match arms of the reader of `VbaProject`. -/
def Obj.vbaProjectArms : List (Arm (objectDecls ++ Obj.vbaProjectSpec)) := [
  ⟨310, .on 3 (.push .bytes)⟩] ++ objectArms Obj.vbaProjectSpec

/-- The specific write statements of `VbaProject`. -/
def Obj.vbaProjectCmds : List (GCmd (objectDecls ++ Obj.vbaProjectSpec)) := [
  { cmd := .const (.newStr 100 str!"AcDbVbaProject") },
  { cmd := .computed (t := .i32) 90 .i32 (fun r => BitVec.ofNat 32 ((fun a : List Byte => a.length) (r 2))) },
  { cmd := .field 3 (.many 310 .bytes) }]

/-- Fields of `VisualStyle`. -/
def Obj.visualStyleSpec : List Decl := [
  /- 2 description -/ ⟨.str, ([] : Str)⟩,
  /- 3 type_code -/ ⟨.i16, (0#16 : BitVec 16)⟩,
  /- 4 face_lighting_model -/ ⟨.enum E.faceLightingModel, (⟨1, by decide⟩ : Fin (List.length E.faceLightingModel))⟩,
  /- 5 face_lighting_quality -/ ⟨.enum E.faceLightingQuality, (⟨1, by decide⟩ : Fin (List.length E.faceLightingQuality))⟩,
  /- 6 face_color_mode -/ ⟨.enum E.faceColorMode, (⟨1, by decide⟩ : Fin (List.length E.faceColorMode))⟩,
  /- 7 face_modifier -/ ⟨.enum E.faceModifier, (⟨0, by decide⟩ : Fin (List.length E.faceModifier))⟩,
  /- 8 face_opacity_level -/ ⟨.f64, (⟨0x0000000000000000#64⟩ : F64)⟩,
  /- 9 face_specular_level -/ ⟨.f64, (⟨0x0000000000000000#64⟩ : F64)⟩,
  /- 10 color1 -/ ⟨.i16, (0#16 : I16)⟩,
  /- 11 color2 -/ ⟨.i16, (0#16 : I16)⟩,
  /- 12 face_style_mono_color -/ ⟨.i32, (0#32 : BitVec 32)⟩,
  /- 13 edge_style_model -/ ⟨.enum E.edgeStyleModel, (⟨0, by decide⟩ : Fin (List.length E.edgeStyleModel))⟩,
  /- 14 edge_style -/ ⟨.i32, (0#32 : BitVec 32)⟩,
  /- 15 edge_intersection_color -/ ⟨.i16, (0#16 : I16)⟩,
  /- 16 edge_obscured_color -/ ⟨.i16, (0#16 : I16)⟩,
  /- 17 edge_obscured_line_type -/ ⟨.i16, (0#16 : BitVec 16)⟩,
  /- 18 edge_intersection_line_type -/ ⟨.i16, (0#16 : BitVec 16)⟩,
  /- 19 edge_crease_angle -/ ⟨.f64, (⟨0x0000000000000000#64⟩ : F64)⟩,
  /- 20 edge_modifiers -/ ⟨.i32, (0#32 : BitVec 32)⟩,
  /- 21 edge_color -/ ⟨.i16, (0#16 : I16)⟩,
  /- 22 edge_opacity_level -/ ⟨.f64, (⟨0x0000000000000000#64⟩ : F64)⟩,
  /- 23 edge_width -/ ⟨.i16, (0#16 : BitVec 16)⟩,
  /- 24 edge_overhang -/ ⟨.i16, (0#16 : BitVec 16)⟩,
  /- 25 edge_jitter -/ ⟨.i16, (0#16 : BitVec 16)⟩,
  /- 26 edge_silhouette_color -/ ⟨.i16, (0#16 : I16)⟩,
  /- 27 edge_silhouette_width -/ ⟨.i16, (0#16 : BitVec 16)⟩,
  /- 28 edge_halo_gap -/ ⟨.i16, (0#16 : BitVec 16)⟩,
  /- 29 edge_iso_line_count -/ ⟨.i32, (0#32 : BitVec 32)⟩,
  /- 30 hide_edge_line_precision -/ ⟨.bool, (false : Bool)⟩,
  /- 31 edge_style_apply_flags -/ ⟨.i32, (0#32 : BitVec 32)⟩,
  /- 32 display_style_settings -/ ⟨.i32, (0#32 : BitVec 32)⟩,
  /- 33 brightness -/ ⟨.f64, (⟨0x0000000000000000#64⟩ : F64)⟩,
  /- 34 shadow_type -/ ⟨.i16, (0#16 : BitVec 16)⟩,
  /- 35 internal_flag -/ ⟨.bool, (false : Bool)⟩]

/-- Match arms of the reader of `VisualStyle`. -/
def Obj.visualStyleArms : List (Arm (objectDecls ++ Obj.visualStyleSpec)) := [
  ⟨2, .on 2 (.set .str)⟩,
  ⟨70, .on 3 (.set .i16)⟩,
  ⟨71, .on 4 (.set (.enumI16 E.faceLightingModel ⟨1, by decide⟩))⟩,
  ⟨72, .on 5 (.set (.enumI16 E.faceLightingQuality ⟨1, by decide⟩))⟩,
  ⟨73, .on 6 (.set (.enumI16 E.faceColorMode ⟨1, by decide⟩))⟩,
  ⟨90, .on 7 (.set (.enumI32 E.faceModifier ⟨0, by decide⟩))⟩,
  ⟨40, .on 8 (.set .f64)⟩,
  ⟨41, .on 9 (.set .f64)⟩,
  ⟨62, .on 10 (.set .i16)⟩,
  ⟨63, .on 11 (.set .i16)⟩,
  ⟨421, .on 12 (.set .i32)⟩,
  ⟨74, .on 13 (.set (.enumI16 E.edgeStyleModel ⟨0, by decide⟩))⟩,
  ⟨91, .on 14 (.set .i32)⟩,
  ⟨64, .on 15 (.set .i16)⟩,
  ⟨65, .on 16 (.set .i16)⟩,
  ⟨75, .on 17 (.set .i16)⟩,
  ⟨175, .on 18 (.set .i16)⟩,
  ⟨42, .on 19 (.set .f64)⟩,
  ⟨92, .on 20 (.set .i32)⟩,
  ⟨66, .on 21 (.set .i16)⟩,
  ⟨43, .on 22 (.set .f64)⟩,
  ⟨76, .on 23 (.set .i16)⟩,
  ⟨77, .on 24 (.set .i16)⟩,
  ⟨78, .on 25 (.set .i16)⟩,
  ⟨67, .on 26 (.set .i16)⟩,
  ⟨79, .on 27 (.set .i16)⟩,
  ⟨170, .on 28 (.set .i16)⟩,
  ⟨171, .on 29 (.set .i32OfI16)⟩,
  ⟨290, .on 30 (.set .bool)⟩,
  ⟨174, .on 31 (.set .i32OfI16)⟩,
  ⟨93, .on 32 (.set .i32)⟩,
  ⟨44, .on 33 (.set .f64)⟩,
  ⟨173, .on 34 (.set .i16)⟩,
  ⟨291, .on 35 (.set .bool)⟩] ++ objectArms Obj.visualStyleSpec

/-- The specific write statements of `VisualStyle`. -/
def Obj.visualStyleCmds : List (GCmd (objectDecls ++ Obj.visualStyleSpec)) := [
  { cmd := .const (.newStr 100 str!"AcDbVisualStyle") },
  { cmd := .field 2 (.one 2 .str) },
  { cmd := .field 3 (.one 70 .i16) },
  { cmd := .field 4 (.one 71 (.enumI16 E.faceLightingModel)) },
  { cmd := .field 5 (.one 72 (.enumI16 E.faceLightingQuality)) },
  { cmd := .field 6 (.one 73 (.enumI16 E.faceColorMode)) },
  { cmd := .field 7 (.one 90 (.enumI32 E.faceModifier)) },
  { cmd := .field 8 (.one 40 .f64) },
  { cmd := .field 9 (.one 41 .f64) },
  { cmd := .field 10 (.one 62 .i16) },
  { cmd := .field 11 (.one 63 .i16) },
  { cmd := .field 12 (.one 421 .i32) },
  { cmd := .field 13 (.one 74 (.enumI16 E.edgeStyleModel)) },
  { cmd := .field 14 (.one 91 .i32) },
  { cmd := .field 15 (.one 64 .i16) },
  { cmd := .field 16 (.one 65 .i16) },
  { cmd := .field 17 (.one 75 .i16) },
  { cmd := .field 18 (.one 175 .i16) },
  { cmd := .field 19 (.one 42 .f64) },
  { cmd := .field 20 (.one 92 .i32) },
  { cmd := .field 21 (.one 66 .i16) },
  { cmd := .field 22 (.one 43 .f64) },
  { cmd := .field 23 (.one 76 .i16) },
  { cmd := .field 24 (.one 77 .i16) },
  { cmd := .field 25 (.one 78 .i16) },
  { cmd := .field 26 (.one 67 .i16) },
  { cmd := .field 27 (.one 79 .i16) },
  { cmd := .field 28 (.one 170 .i16) },
  { cmd := .field 29 (.one 171 .i32AsI16) },
  { cmd := .field 30 (.one 290 .bool) },
  { cmd := .field 31 (.one 174 .i32AsI16) },
  { cmd := .field 32 (.one 93 .i32) },
  { cmd := .field 33 (.one 44 .f64) },
  { cmd := .field 34 (.one 173 .i16) },
  { cmd := .field 35 (.one 291 .bool) }]

/-- Fields of `WipeoutVariables`. -/
def Obj.wipeoutVariablesSpec : List Decl := [
  /- 2 class_version -/ ⟨.i32, (0#32 : BitVec 32)⟩,
  /- 3 display_image_frame -/ ⟨.bool, (false : Bool)⟩]

/-- Match arms of the reader of `WipeoutVariables`. -/
def Obj.wipeoutVariablesArms : List (Arm (objectDecls ++ Obj.wipeoutVariablesSpec)) := [
  ⟨90, .on 2 (.set .i32)⟩,
  ⟨70, .on 3 (.set .asBool)⟩] ++ objectArms Obj.wipeoutVariablesSpec

/-- The specific write statements of `WipeoutVariables`. -/
def Obj.wipeoutVariablesCmds : List (GCmd (objectDecls ++ Obj.wipeoutVariablesSpec)) := [
  { cmd := .const (.newStr 100 str!"AcDbRasterVariables") },
  { cmd := .field 2 (.one 90 .i32) },
  { cmd := .field 3 (.one 70 .asI16) }]

/-- Fields of `XRecordObject`. -/
def Obj.xRecordObjectSpec : List Decl := [
  /- 2 duplicate_record_handling -/ ⟨.enum E.dictionaryDuplicateRecordHandling, (⟨0, by decide⟩ : Fin (List.length E.dictionaryDuplicateRecordHandling))⟩]

/-- Match arms of the hand-written reader of `XRecordObject` (src/object.rs:1435-). -/
def Obj.xRecordObjectArms : List (Arm (objectDecls ++ Obj.xRecordObjectSpec)) := [
  ⟨280, .on 2 (.set (.enumI16 E.dictionaryDuplicateRecordHandling ⟨0, by decide⟩))⟩] ++ objectArms Obj.xRecordObjectSpec

/-- The specific write statements of `XRecordObject`. -/
def Obj.xRecordObjectCmds : List (GCmd (objectDecls ++ Obj.xRecordObjectSpec)) := [
  { cmd := .const (.newStr 100 str!"AcDbXrecord") },
  { cmd := .field 2 (.one 280 (.enumI16 E.dictionaryDuplicateRecordHandling)) }]

end Dxf
