import Verif.Spec.Shapes

/-! What all entities have in common in a DXF file, after the section on common group codes of the DXF reference (C84). -/

namespace Dxf

/-- What every entity has: its layer, its line type and color, the scale of its line type, whether it can
be seen, and whether it is in paper space. -/
structure Look where
  layer : Str
  lineType : Str
  color : I16
  scale : F64
  visible : Bool
  paper : Bool

/-- The code is there once, with the value; or it is not there and the value is the one that holds then. -/
def Said (ps : List CodePair) (code : Int) (value : CodePairValue) (absent : Prop) : Prop :=
  (ps.filter fun p => decide (p.code = code)).map CodePair.value = [value] ∨
  (ps.filter fun p => decide (p.code = code)) = [] ∧ absent

/-- The common codes of entities and what they mean. -/
structure Look.Described (l : Look) (ps : List CodePair) : Prop where
  layer : Said ps 8 (.str l.layer) (l.layer = str!"0")
  lineType : Said ps 6 (.str l.lineType) (l.lineType = str!"BYLAYER")
  color : Said ps 62 (.short l.color) (l.color = 256#16)
  scale : Said ps 48 (.double l.scale) (l.scale = ⟨0x3ff0000000000000#64⟩)
  visible : Said ps 60 (.short (if l.visible then 0 else 1)) (l.visible = true)
  paper : Said ps 67 (.short (if l.paper then 1 else 0)) (l.paper = false)

/-- The pairs of an item itself: those after the first up to the next with code 0. -/
def itsOwn (ps : List CodePair) : List CodePair := ps.tail.takeWhile fun p => decide (p.code ≠ 0)

end Dxf
