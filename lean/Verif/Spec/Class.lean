import Verif.Model.Class

/-! Specification vocabulary for classes. -/

namespace Dxf

/-- What version `v` can say about a class: from R14 on everything but the version number, the
number of instances only from R2004 on; before that neither the proxy flags nor the number of
instances. -/
def Class.visible (v : Version) (c : Class) : Class :=
  if .r2004 ≤ v then { c with versionNumber := 0#32 }
  else if .r14 ≤ v then { c with
    versionNumber := 0#32
    instanceCount := 0#64 }
  else { c with
    proxyCapabilityFlags := 0#32
    instanceCount := 0#64 }

end Dxf
