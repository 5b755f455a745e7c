import Verif.Model.Tables
import Verif.Spec.LayerLook

/-! The public fields of layers. -/

namespace Dxf

/-- The public fields `name`, `line_type_name`, `color` and `is_layer_on` of `Layer`,
spec/TableSpec.xml:109-119.  (There are no fields for frozen and locked.) -/
def LayerLook.of (x : TableItem Tables.layer) : LayerLook :=
  ⟨x.fields 0, x.fields 4, x.fields 3, x.fields 9⟩

end Dxf
