import Verif.Model.Entities
import Verif.Spec.Corners

/-! The corners of light polylines. -/

namespace Dxf

/-- The public fields of `LwPolylineVertex` but for `id`, src/entity.rs:122-129. -/
def LwVertex.corner (v : LwVertex) : Corner := ⟨v.x, v.y, v.startingWidth, v.endingWidth, v.bulge⟩

/-- The public field `vertices` of `LwPolyline`, spec/EntitiesSpec.xml. -/
def Corner.all : Flat → Option (List Corner)
  | ⟨.lwPolyline, _, e⟩ => some (List.map LwVertex.corner (e.fields 21))
  | _ => none

end Dxf
