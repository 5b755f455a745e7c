import Verif.Spec.Drawing

/-! Drawings all of whose references by name lead to something (C59). -/

namespace Dxf

variable {Img : Type}

namespace Drawing

/-- The layer of a block, the layers and line types of its entities and its block record are
there. -/
def BlockRefs (d : Drawing Img) (b : Block) : Prop :=
  d.has .layer b.layer = true ∧ d.has .blockRecord b.name = true ∧
  ∀ e ∈ b.entities, d.has .layer e.layer = true ∧ d.has .lineType e.lineType = true

/-- The line type of a layer is there. -/
def LayerRefs (d : Drawing Img) (x : TName.Item .layer) : Prop :=
  d.has .lineType (x.fields 4) = true

/-- The names used by the layers, blocks, entities and objects of the drawing are names of something
in the drawing. -/
structure Closed (d : Drawing Img) : Prop where
  layers : ∀ x ∈ d.tables .layer, d.LayerRefs x
  blocks : ∀ b ∈ d.blocks, d.BlockRefs b
  entities : ∀ e ∈ d.entities, d.EntityRefs e
  objects : ∀ o ∈ d.objects, d.ObjectRefs o

end Drawing

/-- The operation takes nothing away that could be referred to by name. -/
def Op.Spares : Op → Prop
  | .remove _ _ | .removeObject _ => False
  | _ => True

end Dxf
