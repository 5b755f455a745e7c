import Verif.Model.Drawing

/-! Attributes and vertices that are added to an entity before the entity is added to a drawing. -/

namespace Dxf

namespace Drawing

variable {Img : Type}

/-- Models `Insert::add_attribute`, src/entity.rs:98-101, for an entity that is an `Insert`: the
handle is taken from the drawing at once. -/
def addAttribute (d : Drawing Img) (e : Entity) (fields : Rec (commonDecls ++ Ent.attributeSpec))
    (mtext : MTextRec) : Except DxfErr (Entity × Drawing Img) := do
  let (h, d) ← d.nextHandle
  return ({ e with extra := { e.extra with atts := e.extra.atts ++ [⟨fields, mtext, h⟩] } }, d)

/-- Models `Polyline::add_vertex`, src/entity.rs:154-157, for an entity that is a `Polyline`. -/
def addVertex (d : Drawing Img) (e : Entity) (fields : Rec (commonDecls ++ Ent.vertexSpec)) :
    Except DxfErr (Entity × Drawing Img) := do
  let (h, d) ← d.nextHandle
  return ({ e with extra := { e.extra with verts := e.extra.verts ++ [⟨fields, h⟩] } }, d)

end Drawing
end Dxf
