import Verif.Model.Drawing

/-!
Changing an item through the reference that `item_by_handle_mut` gives.
-/

namespace Dxf

/-- The type of the item that a `DrawingItemMut` refers to, src/drawing_item.rs:41-54. -/
def Slot.Item : Slot → Type
  | .table t _ => t.Item
  | .block _ => Block
  | .entity _ => Entity
  | .object _ => Object

/-- Models `DrawingItemMut::to_drawing_item`, src/drawing_item.rs:89-104. -/
def Slot.item : (s : Slot) → s.Item → DrawingItem
  | .table t _, x => .table t x
  | .block _, b => .block b
  | .entity _, e => .entity e
  | .object _, o => .object o

/-- Models `DrawingItemMut::handle`, src/drawing_item.rs:57-72. -/
def Slot.handle : (s : Slot) → s.Item → Handle
  | .table t _, x => t.handle x
  | .block _, b => b.handle
  | .entity _, e => e.handle
  | .object _, o => o.handle

/-- Models `DrawingItemMut::set_handle`, src/drawing_item.rs:73-88. -/
def Slot.setHandle : (s : Slot) → Handle → s.Item → s.Item
  | .table t _, h, x => t.setHandle x h
  | .block _, h, b => b.setHandle h
  | .entity _, h, e => e.setHandle h
  | .object _, h, o => o.setHandle h

namespace Drawing

variable {Img : Type}

/-- The item that a `DrawingItemMut` refers to. -/
def read (d : Drawing Img) : (s : Slot) → Option s.Item
  | .table t i => (d.tables t)[i]?
  | .block i => d.blocks[i]?
  | .entity i => d.entities[i]?
  | .object i => d.objects[i]?

/-- The drawing after the item that a `DrawingItemMut` refers to was changed, by an assignment to
the item or to its fields.  (A place from `item_by_handle_mut` exists.) -/
def write (d : Drawing Img) : (s : Slot) → (s.Item → s.Item) → Drawing Img
  | .table t i, f => d.setTable t ((d.tables t).modify i f)
  | .block i, f => { d with blocks := d.blocks.modify i f }
  | .entity i, f => { d with entities := d.entities.modify i f }
  | .object i, f => { d with objects := d.objects.modify i f }

end Drawing
end Dxf
