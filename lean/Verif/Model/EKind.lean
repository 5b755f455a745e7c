import Verif.Model.Entry
import Verif.Data.Entities

/-! Kinds of entities: what build/entity_generator.rs generates from spec/EntitiesSpec.xml,
together with the hand-written readers and writers of src/entity.rs. -/

namespace Dxf

/-- The local variables of the hand-written readers, which decide what a code means.

* `Attribute`, `AttributeDefinition` (src/entity.rs:805-820): `a` is
  `last_subclass_marker == "AcDbXrecord"`, `b` is `is_version_set`, `n` is `xrec_code_70_count`.
* `MText` (src/entity.rs:1156-1162): `a` is `reading_column_data`, `b` is `read_column_count`.
* dimensions (src/entity.rs:424-426): `n` is 0 while `dimension_entity` is `None`, then the
  number of the kind.

The generated readers have none. -/
structure Mode where
  a : Bool
  b : Bool
  n : Nat
  deriving DecidableEq, Repr

/-- The initial values. -/
def Mode.start : Mode := ⟨false, false, 0⟩

/-- A kind of entity.  The five kinds of dimensions share a type string and are one kind here;
they are told apart by a number (`sub`). -/
structure EKind where
  /-- the type string that is written (build/entity_generator.rs:448-466) -/
  typeString : Str
  /-- the type strings that are read (build/entity_generator.rs:429-446) -/
  names : List Str
  /-- `is_supported_on_version` (build/entity_generator.rs:402-427) -/
  min : Option Version
  max : Option Version
  /-- the fields beyond those of `EntityCommon` -/
  spec : List Decl
  /-- the reader accepts the end of the input -/
  eof : Bool
  arms : Mode → List (Arm (commonDecls ++ spec))
  next : Mode → CodePair → Mode := fun m _ => m
  /-- which of the kinds sharing the type string has been read -/
  sub : Mode → Option Nat := fun _ => some 0
  /-- the specific write statements -/
  cmds : Nat → List (GCmd (commonDecls ++ spec))

namespace Ent

/-- The assignments to local variables in `apply_custom_reader_attribute` and
`apply_custom_reader_attributedefinition`, src/entity.rs:805-1103. -/
def attributeNext (m : Mode) (p : CodePair) : Mode :=
  if p.code = 100 then { m with a := decide (p.value = .str str!"AcDbXrecord") }
  else if p.code = 280 then bif m.a then m else { m with b := true }
  else if p.code = 70 then bif m.a then { m with n := m.n + 1 } else m
  else m

/-- The same for `apply_custom_reader_mtext`, src/entity.rs:1156-1290. -/
def mTextNext (m : Mode) (p : CodePair) : Mode :=
  if p.code = 75 then { m with a := true }
  else if p.code = 50 then bif m.a then { m with b := true } else m
  else m

/-- The number of the kind of dimension with a given subclass marker, src/entity.rs:527-576. -/
def dimensionOfMarker (s : Str) : Option Nat :=
  if s = str!"AcDbAlignedDimension" then some 1
  else if s = str!"AcDbRadialDimension" then some 2
  else if s = str!"AcDbDiametricDimension" then some 3
  else if s = str!"AcDb3PointAngularDimension" then some 4
  else if s = str!"AcDbOrdinateDimension" then some 5
  else none

/-- The assignment to `dimension_entity`, src/entity.rs:526-577. -/
def dimensionNext (m : Mode) (p : CodePair) : Mode :=
  if m.n = 0 ∧ p.code = 100 then
    match p.value with
    | .str s =>
      match dimensionOfMarker s with
      | some k => { m with n := k }
      | none => m
    | _ => m
  else m

end Ent

end Dxf
