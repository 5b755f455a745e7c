import Verif.Model.Entities
import Verif.Spec.Placed

/-! The fields of texts and block references. -/

namespace Dxf

/-- The public fields, spec/EntitiesSpec.xml: `Text` and `Insert`. -/
def Placed.of : Flat → Option Placed
  | ⟨.text, _, e⟩ => some (.text (e.fields 19) (e.fields 20) (e.fields 21) (e.fields 22) (e.fields 23)
      (e.fields 24))
  | ⟨.insert, _, e⟩ => some (.insert (e.fields 19) (e.fields 20) (e.fields 21) (e.fields 22)
      (e.fields 23) (e.fields 24))
  | _ => none

end Dxf
