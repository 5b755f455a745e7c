import Verif.Model.Entry
import Verif.Data.Objects

/-! Kinds of objects: what build/object_generator.rs generates from spec/ObjectsSpec.xml,
together with the hand-written readers and writers of src/object.rs. -/

namespace Dxf

/-- The initial values of the local variables. -/
def OMode.start : OMode := ⟨false, []⟩

/-- A kind of object. -/
structure OKind where
  /-- the type string that is written (build/object_generator.rs:446-465) -/
  typeString : Str
  /-- the type strings that are read (build/object_generator.rs:427-444) -/
  names : List Str
  /-- `is_supported_on_version` (build/object_generator.rs:390-425) -/
  min : Option Version
  max : Option Version
  /-- the fields beyond those of `ObjectCommon`, without lists of structs and maps -/
  spec : List Decl
  /-- the reader is a hand-written one, which accepts the end of the input and after which
  `post_parse` is not called -/
  eof : Bool
  arms : OMode → List (Arm (objectDecls ++ spec))
  next : OMode → CodePair → OMode := fun m _ => m
  /-- the specific write statements; between them come the lists of structs -/
  cmds : List (GCmd (objectDecls ++ spec))
  cmds2 : List (GCmd (objectDecls ++ spec)) := []
  cmds3 : List (GCmd (objectDecls ++ spec)) := []

namespace Obj

/-- `apply_custom_reader_layout`, src/object.rs:516-521: `a` is `!is_reading_plot_settings`. -/
def layoutNext (m : OMode) (p : CodePair) : OMode :=
  if p.code = 100 then bif m.a then m else { m with a := decide (p.value = .str str!"AcDbLayout") }
  else m

/-- `apply_custom_reader_material`, src/object.rs:663-1073: `a` is `is_reading_normal`, and
`seen` has an element for each assignment to one of the thirteen other local variables. -/
def materialNext (m : OMode) (p : CodePair) : OMode :=
  if p.code ∈ [(3 : Int), 42, 73, 74, 75] then
    bif m.seen.contains p.code then { m with a := true } else { m with seen := p.code :: m.seen }
  else if p.code ∈ [(72 : Int), 90, 272, 273] then
    bif m.seen.contains p.code then m else { m with seen := p.code :: m.seen }
  else if p.code ∈ [(270 : Int), 271] then
    if m.seen.count p.code < 2 then { m with seen := p.code :: m.seen } else m
  else if p.code = 465 then { m with a := true }
  else m

/-- `apply_custom_reader_mlinestyle`, src/object.rs:1079-1115: `a` is `read_element_count`. -/
def mLineStyleNext (m : OMode) (p : CodePair) : OMode :=
  if p.code = 71 then { m with a := true } else m

/-- `apply_custom_reader_sortentstable`, src/object.rs:1152-1175: `a` is
`is_ready_for_sort_handles`. -/
def sortentsNext (m : OMode) (p : CodePair) : OMode :=
  if p.code ∈ [(5 : Int), 100, 330, 331] then { m with a := true } else m

/-- `apply_custom_reader_spatialfilter`, src/object.rs:1186-1213: `a` is
`read_front_clipping_plane`. -/
def spatialNext (m : OMode) (p : CodePair) : OMode :=
  if p.code = 40 then { m with a := true } else m

/-- `apply_custom_reader_sunstudy`, src/object.rs:1280-1360: `a` is `reading_hours`, and 90 is in
`seen` if `seen_version`. -/
def sunStudyNext (m : OMode) (p : CodePair) : OMode :=
  if p.code = 73 ∨ p.code = 290 then { m with a := true }
  else if p.code = 90 then bif m.seen.contains 90 then m else { m with seen := [90] }
  else m

/-- `apply_custom_reader_tablestyle`, src/object.rs:1391-1423: `a` is `read_version`. -/
def tableStyleNext (m : OMode) (p : CodePair) : OMode :=
  if p.code = 280 then { m with a := true } else m

/-- The codes that do not start the data of an `XRecord`: those of
`ObjectCommon::apply_individual_pair` and 105. -/
def xRecordCommon (code : Int) : Bool := [(5 : Int), 330, 102, 1001, 105].contains code

/-- `apply_custom_reader_xrecordobject`, src/object.rs:1440-1470: `a` is `reading_data`. -/
def xRecordNext (m : OMode) (p : CodePair) : OMode :=
  bif m.a || xRecordCommon p.code then m else { m with a := true }

end Obj

end Dxf
