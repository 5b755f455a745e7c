import Verif.Model.Basic
import Verif.Model.Version
import Verif.Model.Record

/-! How simple shapes are described in a DXF file, after the ENTITIES section of the DXF reference
(C77). -/

namespace Dxf

/-- The simple shapes. -/
inductive Shape where
  | line (first second : Point)
  | point (location : Point)
  | circle (center : Point) (radius : F64)
  | arc (center : Point) (radius startAngle endAngle : F64)
  | face (p1 p2 p3 p4 : Point)
  | solid (p1 p2 p3 p4 : Point)
  | trace (p1 p2 p3 p4 : Point)
  | vertex (location : Point)
  | ray (start direction : Point)
  | xline (first direction : Point)
  | ellipse (center majorAxis : Point) (ratio startParameter endParameter : F64)

/-- A point: x has the code given, y the code plus 10, and z the code plus 20. -/
def Point.coded (code : Int) (p : Point) : List CodePair :=
  [.newF64 code p.x, .newF64 (code + 10) p.y, .newF64 (code + 20) p.z]

namespace Shape

/-- The type of the entity. -/
def name : Shape → Str
  | line .. => str!"LINE"
  | point .. => str!"POINT"
  | circle .. => str!"CIRCLE"
  | arc .. => str!"ARC"
  | face .. => str!"3DFACE"
  | solid .. => str!"SOLID"
  | trace .. => str!"TRACE"
  | vertex .. => str!"VERTEX"
  | ray .. => str!"RAY"
  | xline .. => str!"XLINE"
  | ellipse .. => str!"ELLIPSE"

/-- The codes and what they mean. -/
def codes : Shape → List CodePair
  | line a b => a.coded 10 ++ b.coded 11
  | point p => p.coded 10
  | circle c r => c.coded 10 ++ [.newF64 40 r]
  | arc c r a b => c.coded 10 ++ [.newF64 40 r, .newF64 50 a, .newF64 51 b]
  | face a b c d => a.coded 10 ++ b.coded 11 ++ c.coded 12 ++ d.coded 13
  | solid a b c d => a.coded 10 ++ b.coded 11 ++ c.coded 12 ++ d.coded 13
  | trace a b c d => a.coded 10 ++ b.coded 11 ++ c.coded 12 ++ d.coded 13
  | vertex p => p.coded 10
  | ray p d => p.coded 10 ++ d.coded 11
  | xline p d => p.coded 10 ++ d.coded 11
  | ellipse c m r a b => c.coded 10 ++ m.coded 11 ++ [.newF64 40 r, .newF64 41 a, .newF64 42 b]

/-- The version since which files have the entity; all but three are as old as the format. -/
def since : Shape → Version
  | ray .. | xline .. | ellipse .. => .r13
  | _ => .v1_0

end Shape

end Dxf
