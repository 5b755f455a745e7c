import Verif.Spec.Reload

/-! What adding an item changes in a drawing (C60). -/

namespace Dxf

variable {Img : Type}

/-- The names an entity brings with it, by table: its layer, its line type, its dimension style and
its text style.  A layer that is created has the line type CONTINUOUS, and a multiline style that is
created comes with a line type and a text style of its name. -/
def Entity.Needs (e : Entity) : TName → Str → Prop
  | .layer, s => s = e.layer
  | .lineType, s => s = e.lineType ∨ s = str!"CONTINUOUS" ∨ e.mlineStyle = some s
  | .dimStyle, s => e.dimStyle = some s
  | .style, s => e.textStyle = some s ∨ e.mlineStyle = some s
  | _, _ => False

/-- The names an object brings with it. -/
def Object.Needs (o : Object) : TName → Str → Prop
  | .layer, s => s ∈ o.layers
  | .lineType, s => o.styleName = some s ∨ s = str!"CONTINUOUS"
  | .style, s => o.styleName = some s
  | .view, s => o.viewName = some s
  | _, _ => False

/-- The names a block brings with it: its layer and the layers and line types of its entities. -/
def Block.Needs (b : Block) : TName → Str → Prop
  | .layer, s => s = b.layer ∨ ∃ e ∈ b.entities, s = e.layer
  | .lineType, s => s = str!"CONTINUOUS" ∨ ∃ e ∈ b.entities, s = e.lineType
  | _, _ => False

/-- The names an entry of a table brings with it: the line type of a layer. -/
def TName.Needs : (t : TName) → t.Item → TName → Str → Prop
  | .layer, x, .lineType, s => s = x.fields 4
  | _, _, _, _ => False

namespace Drawing

/-- From `d` to `d'` nothing happened to the tables, the header and the rest, but: tables got default
entries, at their ends, for names that were needed and missing, each once; and the next handle was
advanced. -/
structure Provides (needs : TName → Str → Prop) (d d' : Drawing Img) : Prop where
  header : ∀ i, i ≠ 141 → d'.header i = d.header i
  next : d.next.toNat ≤ d'.next.toNat
  classes : d'.classes = d.classes
  thumbnail : d'.thumbnail = d.thumbnail
  tables : ∀ t, ∃ new, d'.tables t = d.tables t ++ new ∧ (new.map t.name).Nodup ∧
    ∀ x ∈ new, needs t (t.name x) ∧ d.has t (t.name x) = false ∧
      x = t.setHandle (t.named (t.name x)) (t.handle x)

end Drawing
end Dxf
