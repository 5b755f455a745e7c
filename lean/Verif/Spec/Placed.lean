import Verif.Spec.Shapes
import Verif.Model.Drawing

/-! How texts and block references are described in a DXF file, after the ENTITIES section of the DXF
reference (C78). -/

namespace Dxf

/-- A text, or a reference to a block (INSERT). -/
inductive Placed where
  | text (location : Point) (height : F64) (value : Str) (rotation xScale oblique : F64)
  | insert (name : Str) (location : Point) (xScale yScale zScale rotation : F64)

namespace Placed

/-- The type of the entity. -/
def name : Placed → Str
  | text .. => str!"TEXT"
  | insert .. => str!"INSERT"

/-- The codes that are always there. -/
def needed : Placed → List CodePair
  | text p h s _ _ _ => p.coded 10 ++ [.newF64 40 h, .newStr 1 s]
  | insert n p _ _ _ _ => .newStr 2 n :: p.coded 10

/-- The codes that may be left out, the values, and what it means when they are left out. -/
def optional : Placed → List (Int × F64 × F64)
  | text _ _ _ r x o => [(50, r, .zero), (41, x, .unit), (51, o, .zero)]
  | insert _ _ x y z r => [(41, x, .unit), (42, y, .unit), (43, z, .unit), (50, r, .zero)]

end Placed

end Dxf
