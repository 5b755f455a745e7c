import Verif.Model.Basic

/-! How layers are described in a DXF file, after the TABLES section of the DXF reference (C79). -/

namespace Dxf

/-- What the DXF reference says about a layer (LAYER in the TABLES section): the name has code 2, the line
type code 6, and the color number code 62; it is negative if the layer is off. -/
structure LayerLook where
  name : Str
  lineType : Str
  color : I16
  on : Bool

/-- The codes and what they mean. -/
def LayerLook.codes (l : LayerLook) : List CodePair :=
  [.newStr 2 l.name, .newStr 6 l.lineType, .newI16 62 (if l.on then l.color else -l.color)]

/-- The flags of a layer, code 70: 1 is set if it is frozen, 4 if it is locked. -/
def frozenFlag : I16 := 1#16
def lockedFlag : I16 := 4#16

end Dxf
