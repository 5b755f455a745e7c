import Verif.Model.Corners
import Verif.Spec.Splines

/-! The public fields of splines. -/

namespace Dxf

/-- The entity is a `Spline` with these values in the public fields `degree_of_curve`, `knot_values`,
`weight_values`, `control_points` and `fit_points`, spec/EntitiesSpec.xml:996-1020. -/
def Curve.In (k : Curve) : Flat → Prop
  | ⟨.spline, _, e⟩ => e.fields 20 = k.degree.signExtend 32 ∧ e.fields 29 = k.knots ∧
      e.fields 30 = k.weights ∧ PtAcc.pts (e.fields 31) = k.control ∧ PtAcc.pts (e.fields 32) = k.fit
  | _ => False

end Dxf
