import Verif.Model.Refs
import Verif.Spec.Lookup

/-! What is expected of references when a drawing is saved and loaded (C54). -/

namespace Dxf

instance (v : Version) (x : DrawingItem) : Decidable (x.Filed v) :=
  match x with
  | .table t _ => inferInstanceAs (Decidable (t = .blockRecord → .r13 ≤ v))
  | .block _ => inferInstanceAs (Decidable (.r13 ≤ v))
  | .entity e => inferInstanceAs (Decidable (e.kind.supported v = true))
  | .object o => inferInstanceAs (Decidable (.r13 ≤ v ∧ o.kind.supported v = true))

/-- What the type of a pointer says about an item: nothing, that it is an entry of a table, or that
it is an entity or an object, perhaps of one kind. -/
inductive RefType.Means : RefType → DrawingItem → Prop
  | any (x : DrawingItem) : Means .any x
  | table (t : TName) (x : t.Item) : Means (.table t) (.table t x)
  | entity (e : Entity) : Means (.entity none) (.entity e)
  | entityOf (e : Entity) : Means (.entity (some e.kind)) (.entity e)
  | object (o : Object) : Means (.object none) (.object o)
  | objectOf (o : Object) : Means (.object (some o.kind)) (.object o)

namespace DrawingItem

/-- The pointers that an item has. -/
def pointers : DrawingItem → List Pointer
  | .entity e => e.kind.pointers
  | .object o => o.kind.pointers
  | _ => []

/-- The handles in a pointer of an item. -/
def refHandles (p : Pointer) : DrawingItem → List Handle
  | .entity e => (tyAt e.kind.decls p.field).refs (e.entry.fields p.field)
  | .object o => (tyAt o.kind.decls p.field).refs (o.entry.fields p.field)
  | _ => []

/-- The items that a pointer of an item refers to in a drawing. -/
def refs {Img : Type} (d : Drawing Img) (p : Pointer) : DrawingItem → List DrawingItem
  | .entity e => p.get d e.entry.fields
  | .object o => p.get d o.entry.fields
  | _ => []

/-- The field of the pointer is written in files of version `v`, and is read back (C21, C22). -/
def Carries (v : Version) (p : Pointer) : DrawingItem → Prop
  | .entity e => p.field ∉ e.kind.lost v ∧ p.field ∉ e.kind.packed ∧
    Written (e.kind.statements e.num true) v e.entry.fields p.field
  | .object o => p.field ∉ o.kind.lost v ∧ Written o.kind.statements v o.entry.fields p.field
  | _ => False

end DrawingItem

end Dxf
