import Verif.Model.Rd
import Verif.Model.Record

/-! Parts of objects that are lists of structs or maps, with their readers and writers. -/

namespace Dxf

/-! ### Dictionaries -/

/-- The order of Rust strings (by UTF-8 bytes, which is the order by code points). -/
def Str.lt : Str → Str → Bool
  | _, [] => false
  | [], _ :: _ => true
  | a :: as, b :: bs => decide (a.toNat < b.toNat) || (a.toNat == b.toNat && Str.lt as bs)

/-- Models `value_handles`, a `HashMap<String, Handle>`: a list of entries in the order of the
keys.  The order is not observable, and writing goes by sorted keys. -/
abbrev Dict := List (Str × Handle)

/-- Models `HashMap::insert`. -/
def Dict.insert (key : Str) (h : Handle) : Dict → Dict
  | [] => [(key, h)]
  | (k, x) :: rest =>
    if k = key then (key, h) :: rest
    else if Str.lt key k then (key, h) :: (k, x) :: rest
    else (k, x) :: Dict.insert key h rest

/-- The entries, src/object.rs:1552-1560, 1571-1577. -/
def Dict.pairs (code : Int) (d : Dict) : List CodePair :=
  d.flatMap fun (k, h) => [.newStr 3 k, .newStr code h.asString]

/-! ### Data tables -/

/-- Models `DataTableValue`, src/data_table_value.rs:5-13. -/
inductive DataTableValue where
  | boolean (b : Bool)
  | integer (n : I32)
  | double (f : F64)
  | str (s : Str)
  | point2D (p : Point)
  | point3D (p : Point)
  | handle (h : Handle)
  deriving DecidableEq

/-- The fields of `DataTable` besides `field`. -/
structure DataTable where
  columnCount : Nat := 0
  rowCount : Nat := 0
  name : Str := []
  columnNames : List Str := []
  values : List (List (Option DataTableValue)) := []
  deriving DecidableEq

namespace DataTable

/-- Models `set_value`, src/object.rs:63-67; indexing out of bounds panics. -/
def setValue (d : DataTable) (row col : Nat) (v : DataTableValue) : Except DxfErr DataTable :=
  if row < d.rowCount ∧ col < d.columnCount then
    match d.values[row]? with
    | none => .error .panic
    | some cells =>
      if col < cells.length then .ok { d with values := d.values.set row (cells.set col (some v)) }
      else .error .panic
  else .ok d

/-- `as usize` of an `i32`, on a target with 64 bits. -/
def usize (v : I32) : Nat := (v.signExtend 64).toNat

/-- Models `data.values[row][col]`. -/
def cell (d : DataTable) (row col : Nat) : Except DxfErr (Option DataTableValue) :=
  match d.values[row]? with
  | none => .error .panic
  | some cells =>
    match cells[col]? with
    | none => .error .panic
    | some c => .ok c

end DataTable

/-- The code of a column, src/object.rs:1497-1506. -/
def DataTableValue.code : DataTableValue → I32
  | .boolean _ => 71#32
  | .integer _ => 93#32
  | .double _ => 40#32
  | .str _ => 3#32
  | .point2D _ => 10#32
  | .point3D _ => 11#32
  | .handle _ => 331#32

/-- What is written for a value, src/object.rs:1511-1538. -/
def DataTableValue.pairs : DataTableValue → List CodePair
  | .boolean b => [.newI16 71 (if b then 1#16 else 0#16)]
  | .integer n => [.newI32 93 n]
  | .double f => [.newF64 40 f]
  | .str s => [.newStr 3 s]
  | .point2D p => [.newF64 10 p.x, .newF64 20 p.y, .newF64 30 p.z]
  | .point3D p => [.newF64 11 p.x, .newF64 21 p.y, .newF64 31 p.z]
  | .handle h => [.newStr 331 h.asString]

/-- What is written for a column, src/object.rs:1496-1542. -/
def DataTable.columnPairs (d : DataTable) (col : Nat) : Except DxfErr (List CodePair) := do
  match ← d.cell 0 col with
  | none => return []
  | some x =>
    match d.columnNames[col]? with
    | none => .error .panic
    | some name => do
      let cells ← (List.range d.rowCount).mapM fun row => d.cell row col
      return .newI32 92 x.code :: .newStr 2 name :: cells.flatMap fun c =>
        match c with
        | some v => v.pairs
        | none => []

/-- What is written for a data table after `field`, src/object.rs:1493-1544. -/
def DataTable.pairs (d : DataTable) : Except DxfErr (List CodePair) := do
  let cols ← (List.range d.columnCount).mapM d.columnPairs
  return .newI32 90 (BitVec.ofNat 32 d.columnCount) :: .newI32 91 (BitVec.ofNat 32 d.rowCount) ::
    .newStr 1 d.name :: cols.flatten

/-! ### Section settings -/

/-- Fields of `SectionGeometrySettings`, src/section_geometry_settings.rs:7-47. -/
def geometryDecls : List Decl := [
  /- 0 section_type -/ ⟨.i32, (0#32 : I32)⟩,
  /- 1 geometry_count -/ ⟨.i32, (0#32 : I32)⟩,
  /- 2 bit_flags -/ ⟨.i32, (0#32 : I32)⟩,
  /- 3 color -/ ⟨.i16, (0#16 : I16)⟩,
  /- 4 layer_name -/ ⟨.str, ([] : Str)⟩,
  /- 5 line_type_name -/ ⟨.str, ([] : Str)⟩,
  /- 6 line_type_scale -/ ⟨.f64, (⟨0x3ff0000000000000#64⟩ : F64)⟩,
  /- 7 plot_style_name -/ ⟨.str, ([] : Str)⟩,
  /- 8 line_weight -/ ⟨.i16, (0#16 : I16)⟩,
  /- 9 face_transparency -/ ⟨.i16, (0#16 : I16)⟩,
  /- 10 edge_transparency -/ ⟨.i16, (0#16 : I16)⟩,
  /- 11 hatch_pattern_type -/ ⟨.i16, (0#16 : I16)⟩,
  /- 12 hatch_pattern_name -/ ⟨.str, ([] : Str)⟩,
  /- 13 hatch_angle -/ ⟨.f64, (⟨0#64⟩ : F64)⟩,
  /- 14 hatch_scale -/ ⟨.f64, (⟨0x3ff0000000000000#64⟩ : F64)⟩,
  /- 15 hatch_spacing -/ ⟨.f64, (⟨0#64⟩ : F64)⟩]

/-- Match arms of `SectionGeometrySettings::read`, src/section_geometry_settings.rs:75-132. -/
def geometryArms : List (Arm geometryDecls) := [
  ⟨1, .on 7 (.set .str)⟩, ⟨2, .on 12 (.set .str)⟩, ⟨6, .on 5 (.set .str)⟩, ⟨8, .on 4 (.set .str)⟩,
  ⟨40, .on 6 (.set .f64)⟩, ⟨41, .on 13 (.set .f64)⟩, ⟨42, .on 14 (.set .f64)⟩,
  ⟨43, .on 15 (.set .f64)⟩, ⟨63, .on 3 (.set .i16)⟩, ⟨70, .on 9 (.set .i16)⟩,
  ⟨71, .on 10 (.set .i16)⟩, ⟨72, .on 11 (.set .i16)⟩, ⟨90, .on 0 (.set .i32)⟩,
  ⟨91, .on 1 (.set .i32)⟩, ⟨92, .on 2 (.set .i32)⟩, ⟨370, .on 8 (.set .i16)⟩]

/-- `SectionGeometrySettings::add_code_pairs` without the end marker,
src/section_geometry_settings.rs:142-160. -/
def geometryCmds : List (GCmd geometryDecls) := [
  { cmd := .field 0 (.one 90 .i32) }, { cmd := .field 1 (.one 91 .i32) },
  { cmd := .field 2 (.one 92 .i32) }, { cmd := .field 3 (.one 63 .i16) },
  { cmd := .field 4 (.one 8 .str) }, { cmd := .field 5 (.one 6 .str) },
  { cmd := .field 6 (.one 40 .f64) }, { cmd := .field 7 (.one 1 .str) },
  { cmd := .field 8 (.one 370 .i16) }, { cmd := .field 9 (.one 70 .i16) },
  { cmd := .field 10 (.one 71 .i16) }, { cmd := .field 11 (.one 72 .i16) },
  { cmd := .field 12 (.one 2 .str) }, { cmd := .field 13 (.one 41 .f64) },
  { cmd := .field 14 (.one 42 .f64) }, { cmd := .field 15 (.one 43 .f64) }]

abbrev Geometry := Rec geometryDecls

def Geometry.pairs (g : Geometry) : List CodePair :=
  emitAll geometryCmds .r2018 g ++ [.newStr 3 str!"SectionGeometrySettingsEnd"]

/-- The loop of `SectionGeometrySettings::read`, src/section_geometry_settings.rs:67-138. -/
def Geometry.loop : Nat → Geometry → Rd Geometry
  | 0, _ => Rd.fail .outOfFuel
  | fuel + 1, g => do
    match ← Rd.next? with
    | none => return g
    | some pair =>
      if pair.code = 3 then return g
      else
        match findArm geometryArms pair.code with
        | none => do
          Rd.putBack pair
          return g
        | some _ => do
          let g' ← Rd.lift (applyPair geometryArms g pair)
          Geometry.loop fuel g'

/-- Models `SectionGeometrySettings::read`, src/section_geometry_settings.rs:52-140. -/
def Geometry.read : Rd (Option Geometry) := do
  match ← Rd.next? with
  | none => return none
  | some pair => do
    Rd.putBack pair
    if pair.code = 90 then do
      let g ← Rd.withFuel fun fuel => Geometry.loop fuel (Rec.dflt _)
      return some g
    else return none

/-- The loop around it, src/section_type_settings.rs:66-68. -/
def Geometry.readAll : Nat → Rd (List Geometry)
  | 0 => Rd.fail .outOfFuel
  | fuel + 1 => do
    match ← Geometry.read with
    | none => return []
    | some g => do
      let gs ← Geometry.readAll fuel
      return g :: gs

/-- Models `SectionTypeSettings`, src/section_type_settings.rs:8-28. -/
structure SectionType where
  sectionType : I32 := 0#32
  isGenerationOption : Bool := false
  sources : List Handle := []
  destination : Handle := 0#64
  fileName : Str := []
  geometry : List Geometry := []

/-- Models `add_code_pairs`, src/section_type_settings.rs:98-125. -/
def SectionType.pairs (s : SectionType) : List CodePair :=
  [.newStr 1 str!"SectionTypeSettings", .newI32 90 s.sectionType,
    .newI32 91 (if s.isGenerationOption then 1#32 else 0#32),
    .newI32 92 (BitVec.ofNat 32 s.sources.length)] ++
  (s.sources.map fun h => .newStr 330 h.asString) ++
  [.newStr 331 s.destination.asString, .newStr 1 s.fileName,
    .newI32 93 (BitVec.ofNat 32 s.geometry.length), .newStr 2 str!"SectionGeometrySettings"] ++
  s.geometry.flatMap Geometry.pairs ++ [.newStr 3 str!"SectionTypeSettingsEnd"]

/-- The loop of `SectionTypeSettings::read`, src/section_type_settings.rs:46-96. -/
def SectionType.loop : Nat → SectionType → Rd SectionType
  | 0, _ => Rd.fail .outOfFuel
  | fuel + 1, s => do
    match ← Rd.next? with
    | none => return s
    | some pair =>
      if pair.code = 0 then do
        Rd.putBack pair
        return s
      else if pair.code = 1 then do
        let x ← Rd.lift pair.assertString
        SectionType.loop fuel { s with fileName := x }
      else if pair.code = 2 then do
        let gs ← Rd.withFuel Geometry.readAll
        SectionType.loop fuel { s with geometry := s.geometry ++ gs }
      else if pair.code = 3 ∨ pair.code = 92 ∨ pair.code = 93 then SectionType.loop fuel s
      else if pair.code = 90 then do
        let x ← Rd.lift pair.assertI32
        SectionType.loop fuel { s with sectionType := x }
      else if pair.code = 91 then do
        let x ← Rd.lift pair.assertI32
        SectionType.loop fuel { s with isGenerationOption := decide (x.setWidth 16 = 1#16) }
      else if pair.code = 330 then do
        let x ← Rd.lift pair.asHandle
        SectionType.loop fuel { s with sources := s.sources ++ [x] }
      else if pair.code = 331 then do
        let x ← Rd.lift pair.asHandle
        SectionType.loop fuel { s with destination := x }
      else do
        Rd.putBack pair
        return s

/-- Models `SectionTypeSettings::read`, src/section_type_settings.rs:32-97. -/
def SectionType.read : Rd (Option SectionType) := do
  match ← Rd.next? with
  | none => return none
  | some pair => do
    Rd.putBack pair
    if pair.code = 0 then return none
    else do
      let s ← Rd.withFuel fun fuel => SectionType.loop fuel {}
      return some s

/-- The loop around it, src/object.rs:1131-1134.  It need not come to an end: fuel runs out then
(see C45). -/
def SectionType.readAll : Nat → Rd (List SectionType)
  | 0 => Rd.fail .outOfFuel
  | fuel + 1 => do
    match ← SectionType.read with
    | none => return []
    | some s => do
      let ss ← SectionType.readAll fuel
      return s :: ss

/-! ### Cell styles -/

/-- Fields of `TableCellStyle`, src/table_cell_style.rs:9-36. -/
def cellDecls : List Decl := [
  /- 0 name -/ ⟨.str, ([] : Str)⟩,
  /- 1 text_height -/ ⟨.f64, (⟨0#64⟩ : F64)⟩,
  /- 2 cell_alignment -/ ⟨.i16, (0#16 : I16)⟩,
  /- 3 text_color -/ ⟨.i16, (0#16 : I16)⟩,
  /- 4 cell_fill_color -/ ⟨.i16, (0#16 : I16)⟩,
  /- 5 is_background_color_enabled -/ ⟨.bool, (false : Bool)⟩,
  /- 6 cell_data_type -/ ⟨.i32, (0#32 : I32)⟩,
  /- 7 cell_unit_type -/ ⟨.i32, (0#32 : I32)⟩,
  /- 8 border_lineweight_1 -/ ⟨.i16, (0#16 : I16)⟩, /- 9 -/ ⟨.i16, (0#16 : I16)⟩,
  /- 10 -/ ⟨.i16, (0#16 : I16)⟩, /- 11 -/ ⟨.i16, (0#16 : I16)⟩, /- 12 -/ ⟨.i16, (0#16 : I16)⟩,
  /- 13 border_lineweight_6 -/ ⟨.i16, (0#16 : I16)⟩,
  /- 14 is_border_1_visible -/ ⟨.bool, (false : Bool)⟩, /- 15 -/ ⟨.bool, (false : Bool)⟩,
  /- 16 -/ ⟨.bool, (false : Bool)⟩, /- 17 -/ ⟨.bool, (false : Bool)⟩,
  /- 18 -/ ⟨.bool, (false : Bool)⟩, /- 19 is_border_6_visible -/ ⟨.bool, (false : Bool)⟩,
  /- 20 border_1_color -/ ⟨.i16, (0#16 : I16)⟩, /- 21 -/ ⟨.i16, (0#16 : I16)⟩,
  /- 22 -/ ⟨.i16, (0#16 : I16)⟩, /- 23 -/ ⟨.i16, (0#16 : I16)⟩, /- 24 -/ ⟨.i16, (0#16 : I16)⟩,
  /- 25 border_6_color -/ ⟨.i16, (0#16 : I16)⟩]

/-- Match arms of `TableCellStyle::read`, src/table_cell_style.rs:50-138, without the one for the
name. -/
def cellArms : List (Arm cellDecls) := [
  ⟨62, .on 3 (.set .i16)⟩, ⟨63, .on 4 (.set .i16)⟩, ⟨64, .on 20 (.set .i16)⟩,
  ⟨65, .on 21 (.set .i16)⟩, ⟨66, .on 22 (.set .i16)⟩, ⟨67, .on 23 (.set .i16)⟩,
  ⟨68, .on 24 (.set .i16)⟩, ⟨69, .on 25 (.set .i16)⟩, ⟨90, .on 6 (.set .i32)⟩,
  ⟨91, .on 7 (.set .i32)⟩, ⟨140, .on 1 (.set .f64)⟩, ⟨170, .on 2 (.set .i16)⟩,
  ⟨274, .on 8 (.set .i16)⟩, ⟨275, .on 9 (.set .i16)⟩, ⟨276, .on 10 (.set .i16)⟩,
  ⟨277, .on 11 (.set .i16)⟩, ⟨278, .on 12 (.set .i16)⟩, ⟨279, .on 13 (.set .i16)⟩,
  ⟨283, .on 5 (.set .asBool)⟩, ⟨284, .on 14 (.set .asBool)⟩, ⟨285, .on 15 (.set .asBool)⟩,
  ⟨286, .on 16 (.set .asBool)⟩, ⟨287, .on 17 (.set .asBool)⟩, ⟨288, .on 18 (.set .asBool)⟩,
  ⟨289, .on 19 (.set .asBool)⟩]

/-- What is written for a cell style (`TableStyle` in spec/ObjectsSpec.xml). -/
def cellCmds : List (GCmd cellDecls) := [
  { cmd := .field 0 (.one 7 .str) }, { cmd := .field 1 (.one 140 .f64) },
  { cmd := .field 2 (.one 170 .i16) }, { cmd := .field 3 (.one 62 .i16) },
  { cmd := .field 4 (.one 63 .i16) }, { cmd := .field 5 (.one 283 .asI16) },
  { cmd := .field 6 (.one 90 .i32) }, { cmd := .field 7 (.one 91 .i32) },
  { cmd := .field 8 (.one 274 .i16) }, { cmd := .field 9 (.one 275 .i16) },
  { cmd := .field 10 (.one 276 .i16) }, { cmd := .field 11 (.one 277 .i16) },
  { cmd := .field 12 (.one 278 .i16) }, { cmd := .field 13 (.one 279 .i16) },
  { cmd := .field 14 (.one 284 .asI16) }, { cmd := .field 15 (.one 285 .asI16) },
  { cmd := .field 16 (.one 286 .asI16) }, { cmd := .field 17 (.one 287 .asI16) },
  { cmd := .field 18 (.one 288 .asI16) }, { cmd := .field 19 (.one 289 .asI16) },
  { cmd := .field 20 (.one 64 .i16) }, { cmd := .field 21 (.one 65 .i16) },
  { cmd := .field 22 (.one 66 .i16) }, { cmd := .field 23 (.one 67 .i16) },
  { cmd := .field 24 (.one 68 .i16) }, { cmd := .field 25 (.one 69 .i16) }]

abbrev CellStyle := Rec cellDecls

def CellStyle.pairs (c : CellStyle) : List CodePair := emitAll cellCmds .r2018 c

/-- Models `TableCellStyle::read`, src/table_cell_style.rs:41-147.  A pair with code 0 ends the
style and is not put back. -/
def CellStyle.read : Nat → Bool → CellStyle → Rd CellStyle
  | 0, _, _ => Rd.fail .outOfFuel
  | fuel + 1, seenName, c => do
    match ← Rd.next? with
    | none => return c
    | some pair =>
      if pair.code = 0 then return c
      else if pair.code = 7 then
        if seenName then do
          Rd.putBack pair
          return c
        else do
          let s ← Rd.lift pair.assertString
          CellStyle.read fuel true (Rec.set c 0 (s : Str))
      else
        match findArm cellArms pair.code with
        | none => do
          Rd.putBack pair
          return c
        | some _ => do
          let c' ← Rd.lift (applyPair cellArms c pair)
          CellStyle.read fuel seenName c'

end Dxf
