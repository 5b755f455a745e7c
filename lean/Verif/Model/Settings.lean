import Verif.Spec.Header
import Verif.Spec.Settings

/-! The public fields of the header. -/

namespace Dxf

/-- The public fields of `Header`, spec/HeaderVariablesSpec.xml. -/
def Settings.of (h : Header) : Settings :=
  ⟨h 5, h 6, h 7, h 16, h 19, h 21, h 22, h 23, h 10, h 12⟩

end Dxf
