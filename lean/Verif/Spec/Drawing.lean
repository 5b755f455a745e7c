import Verif.Model.Drawing

/-! What is expected of the operations on a drawing (C13 to C18). -/

namespace Dxf

variable {Img : Type}

namespace Drawing

/-- The item is stored in the drawing. -/
def Stores (d : Drawing Img) : DrawingItem → Prop
  | .table t x => x ∈ d.tables t
  | .block b => b ∈ d.blocks
  | .entity e => e ∈ d.entities
  | .object o => o ∈ d.objects

/-- The handles of all stored items, and of the entities in blocks. -/
def handles (d : Drawing Img) : List Handle :=
  (TName.all.flatMap fun t => (d.tables t).map t.handle) ++
  d.blocks.map Block.handle ++ (d.blocks.flatMap fun b => b.entities.map Entity.handle) ++
  d.entities.map Entity.handle ++ d.objects.map Object.handle

/-- No handle occurs twice, none is the null handle, and the next one is greater than all. -/
def Sound (d : Drawing Img) : Prop :=
  d.handles.Nodup ∧ ∀ h ∈ d.handles, 0#64 < h ∧ h < d.next

/-- The handles of the attributes, of the vertices and of the end mark of an entity. -/
def _root_.Dxf.Entity.childHandles (e : Entity) : List Handle :=
  if e.kind = .insert then e.extra.seqend :: e.extra.atts.map Att.handle
  else if e.kind = .polyline then e.extra.seqend :: e.extra.verts.map Vert.handle
  else []

/-- All handles that are written to a file. -/
def deepHandles (d : Drawing Img) : List Handle :=
  d.handles ++ (d.blocks.flatMap fun b => b.entities.flatMap Entity.childHandles) ++
  d.entities.flatMap Entity.childHandles

/-- Like `Sound`, for all handles that are written to a file. -/
def DeepSound (d : Drawing Img) : Prop :=
  d.deepHandles.Nodup ∧ ∀ h ∈ d.deepHandles, 0#64 < h ∧ h < d.next

/-- The order in which a `HashSet` of the names of UCSs in the header is visited. -/
def UcsOrder (d : Drawing Img) (order : List Str) : Prop :=
  order.Nodup ∧ ∀ s, s ∈ order ↔ s ∈ d.ucsNames

/-- The entries that every normalized drawing has. -/
def standard : List (TName × Str) :=
  [(.appId, str!"ACAD"), (.appId, str!"ACADANNOTATIVE"), (.appId, str!"ACAD_NAV_VCDISPLAY"),
   (.appId, str!"ACAD_MLEADERVER"), (.blockRecord, str!"*MODEL_SPACE"),
   (.blockRecord, str!"*PAPER_SPACE"), (.dimStyle, str!"STANDARD"), (.dimStyle, str!"ANNOTATIVE"),
   (.layer, str!"0"), (.lineType, str!"BYLAYER"), (.lineType, str!"BYBLOCK"),
   (.lineType, str!"CONTINUOUS"), (.style, str!"STANDARD"), (.style, str!"ANNOTATIVE"),
   (.viewPort, str!"*ACTIVE")]

/-- The names an object refers to are there. -/
def ObjectRefs (d : Drawing Img) (o : Object) : Prop :=
  (∀ s ∈ o.layers, d.has .layer s = true) ∧
  (∀ s ∈ o.styleName, d.has .lineType s = true ∧ d.has .style s = true) ∧
  (∀ s ∈ o.viewName, d.has .view s = true)

/-- The names an entity refers to are there. -/
def EntityRefs (d : Drawing Img) (e : Entity) : Prop :=
  d.has .layer e.layer = true ∧ d.has .lineType e.lineType = true ∧
  (∀ s ∈ e.mlineStyle, ∃ o ∈ d.objects, o.styleName = some s) ∧
  (∀ s ∈ e.dimStyle, d.has .dimStyle s = true) ∧ (∀ s ∈ e.textStyle, d.has .style s = true)

/-- The attributes and vertices have not been given handles yet, as is so for those that were read. -/
def _root_.Dxf.Entity.Unhandled (e : Entity) : Prop :=
  (∀ a ∈ e.extra.atts, a.handle = autoReplaceHandle) ∧
  ∀ v ∈ e.extra.verts, v.handle = autoReplaceHandle

end Drawing

/-- An operation on a drawing. -/
inductive Op where
  | add (t : TName) (x : t.Item)
  | addBlock (b : Block)
  | addEntity (e : Entity)
  | addObject (o : Object)
  | remove (t : TName) (i : Nat)
  | removeBlock (i : Nat)
  | removeEntity (i : Nat)
  | removeObject (i : Nat)
  | clear
  | normalize (ucsOrder : List Str)
  /-- making an item with that handle the owner of another one -/
  | own (h : Handle)

/-- The state after the operation. -/
def Op.run : Op → Drawing Img → Except DxfErr (Drawing Img)
  | .add t x, d => (d.add t x).map (·.2)
  | .addBlock b, d => (d.addBlock b).map (·.2)
  | .addEntity e, d => (d.addEntity e).map (·.2)
  | .addObject o, d => (d.addObject o).map (·.2)
  | .remove t i, d => .ok (d.remove t i).2
  | .removeBlock i, d => .ok (d.removeBlock i).2
  | .removeEntity i, d => .ok (d.removeEntity i).2
  | .removeObject i, d => .ok (d.removeObject i).2
  | .clear, d => .ok d.clear
  | .normalize order, d => d.normalize order
  | .own h, d => (d.assignHandle h).map (·.2)

/-- A bound for the number of handles the operation takes. -/
def Op.cost : Op → Nat
  | .add _ _ => 2
  | .addBlock b => 5 + 5 * b.entities.length
  | .addEntity e => 18 + e.extra.atts.length + e.extra.verts.length
  | .addObject o => 7 + 2 * o.layers.length
  | .remove _ _ | .removeBlock _ | .removeEntity _ | .removeObject _ | .clear => 0
  | .normalize order => 40 + 2 * order.length
  | .own _ => 1

/-- The state after a history. -/
def Op.runAll (ops : List Op) (d : Drawing Img) : Except DxfErr (Drawing Img) :=
  ops.foldlM (fun d op => op.run d) d

/-- The drawing can be obtained from a new drawing by such operations, none of which panics. -/
def Drawing.ReachableBy (P : Op → Prop) (d : Drawing Img) : Prop :=
  ∃ h0 order ops, Header.Fresh h0 ∧ (∀ op ∈ ops, P op) ∧
    (Drawing.new h0 order >>= Op.runAll ops) = .ok d

/-- The drawing can be obtained from a new drawing by any operations that do not panic. -/
def Drawing.Reachable (d : Drawing Img) : Prop := d.ReachableBy fun _ => True

/-- An operation that adds no entity whose attributes or vertices have handles, and no block that
contains an entity with attributes or vertices. -/
def Op.Simple : Op → Prop
  | .addEntity e => e.Unhandled
  | .addBlock b => ∀ e ∈ b.entities, e.kind ≠ .insert ∧ e.kind ≠ .polyline
  | _ => True

/-- What normalizing makes of an item. -/
def DrawingItem.normalize : DrawingItem → DrawingItem
  | .table t x => .table t (t.normalize x)
  | .block b => .block b.normalize
  | .entity e => .entity e.normalize
  | .object o => .object o

/-- The operation removes the item. -/
def Op.Removes (d : Drawing Img) (x : DrawingItem) : Op → Prop
  | .remove t i => ∃ y, (d.tables t)[i]? = some y ∧ x = .table t y
  | .removeBlock i => ∃ y, d.blocks[i]? = some y ∧ x = .block y
  | .removeEntity i => ∃ y, d.entities[i]? = some y ∧ x = .entity y
  | .removeObject i => ∃ y, d.objects[i]? = some y ∧ x = .object y
  | .clear => True
  | _ => False

/-- The item at a place. -/
def Drawing.at (d : Drawing Img) : Slot → Option DrawingItem
  | .table t i => (d.tables t)[i]?.map (.table t)
  | .block i => d.blocks[i]?.map .block
  | .entity i => d.entities[i]?.map .entity
  | .object i => d.objects[i]?.map .object

/-- `l'` is `l` without the element at place `i`. -/
def Without {α : Type} (l l' : List α) (i : Nat) : Prop :=
  i < l.length ∧ l'.length + 1 = l.length ∧ (∀ j, j < i → l'[j]? = l[j]?) ∧
    ∀ j, i ≤ j → l'[j]? = l[j + 1]?

/-- From `d` to `d'`, tables got additional entries only, for names that were missing, each once;
entries that existed are the same, at the same places. -/
def Drawing.KeepsTables (d d' : Drawing Img) : Prop :=
  ∀ t, ∃ new, d'.tables t = d.tables t ++ new ∧
    (∀ x ∈ new, ∀ y ∈ d.tables t, t.name y ≠ t.name x) ∧ (new.map t.name).Nodup

/-- The fields of an entry that normalizing may replace by a default: those for which empty texts
or numbers that are not positive make no sense. -/
def TName.defaulted : TName → List Nat
  | .layer => [3, 4]
  | .style => [3, 4]
  | .view => [3, 5, 8]
  | .viewPort => [7, 8, 11, 12, 13, 19, 21]
  | _ => []

end Dxf
