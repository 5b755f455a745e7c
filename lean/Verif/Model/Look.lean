import Verif.Model.Entities
import Verif.Spec.Look

/-! The common public fields of entities. -/

namespace Dxf

/-- The public fields `layer`, `line_type_name`, `color`, `line_type_scale`, `is_visible` and
`is_in_paper_space` of `EntityCommon`, spec/EntitiesSpec.xml:12-20. -/
def Look.of (f : Flat) : Look :=
  let r : Rec commonDecls := Rec.common f.entry.fields
  ⟨r 3, r 4, r 7, r 9, r 10, r 2⟩

end Dxf
