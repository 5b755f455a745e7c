import Verif.Model.Drawing

/-! How the corners of light polylines are described in a DXF file, after LWPOLYLINE in the DXF reference
(C80). -/

namespace Dxf

/-- A corner of a polyline. -/
structure Corner where
  x : F64
  y : F64
  startWidth : F64
  endWidth : F64
  bulge : F64

/-- The code is there once, with the value. -/
def Given (code : Int) (z : F64) (ps : List CodePair) : Prop :=
  (ps.filter fun p => decide (p.code = code)).map CodePair.value = [.double z]

/-- The code is there once, with the value, or it is left out and that means 0. -/
def GivenOrZero (code : Int) (z : F64) (ps : List CodePair) : Prop :=
  Given code z ps ∨ ((ps.filter fun p => decide (p.code = code)) = [] ∧ z = .zero)

/-- The pairs describe the corner (LWPOLYLINE in the DXF reference): x stands first and has the code 10;
then come, in any order and among other fields, y (20), the widths (40 and 41) and the bulge (42). -/
def Corner.Describes (k : Corner) (ps : List CodePair) : Prop :=
  ∃ p rest, ps = p :: rest ∧ p.code = 10 ∧ p.value = .double k.x ∧ (∀ q ∈ rest, q.code ≠ 10) ∧
    Given 20 k.y rest ∧ GivenOrZero 40 k.startWidth rest ∧ GivenOrZero 41 k.endWidth rest ∧
    GivenOrZero 42 k.bulge rest

/-- The codes of corners; 91 is a number that names the corner. -/
def cornerCodes : List Int := [10, 20, 40, 41, 42, 91]

/-- The widths and the bulge are not −0.0: what equals 0.0, as numbers are compared, is 0.0. -/
def Corner.Exact (k : Corner) : Prop :=
  ∀ z ∈ [k.startWidth, k.endWidth, k.bulge], F64.rustEq z .zero = true → z = .zero

end Dxf
