import Verif.Spec.Shapes

/-! How splines are described in a DXF file, after the SPLINE section of the DXF reference (C83). -/

namespace Dxf

/-- A spline. -/
structure Curve where
  degree : I16
  knots : List F64
  weights : List F64
  control : List Point
  fit : List Point

/-- The coordinates of points, in their order, each point as x, y and z. -/
def Curve.points (code : Int) (ps : List Point) : List CodePair := ps.flatMap (Point.coded code)

/-- The pairs give the points, whatever stands between the coordinates. -/
def Curve.Gives (ps : List CodePair) (code : Int) (points : List Point) : Prop :=
  (ps.filter fun p => decide (p.code = code)).map CodePair.value = points.map (fun q => .double q.x) ∧
  (ps.filter fun p => decide (p.code = code + 10)).map CodePair.value = points.map (fun q => .double q.y) ∧
  (ps.filter fun p => decide (p.code = code + 20)).map CodePair.value = points.map (fun q => .double q.z)

end Dxf
