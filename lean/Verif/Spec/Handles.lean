import Verif.Spec.Reload

/-! What it means that drawings differ in their handles only (C76). -/

namespace Dxf

variable {Img : Type}

/-- The second entity is the first one with other handles. -/
def Entity.Alike (e e' : Entity) : Prop :=
  (∃ h, e'.toFlat = (e.setHandle h).toFlat) ∧ e'.extra.unhandled = e.extra.unhandled

/-- The second block is the first one with other handles. -/
def Block.Alike (b b' : Block) : Prop :=
  (∃ h, b'.entry = (b.setHandle h).entry) ∧ List.Forall₂ Entity.Alike b.entities b'.entities

/-- The second drawing is the first one with other handles.  Nothing is said about the objects. -/
structure Drawing.Alike (d d' : Drawing Img) : Prop where
  header : ∀ i, i ≠ 141 → d'.header i = d.header i
  classes : d'.classes = d.classes
  tables : ∀ t, List.Forall₂ (fun x y => ∃ h, y = t.setHandle x h) (d.tables t) (d'.tables t)
  blocks : List.Forall₂ Block.Alike d.blocks d'.blocks
  entities : List.Forall₂ Entity.Alike d.entities d'.entities
  thumbnail : d'.thumbnail = d.thumbnail

end Dxf
