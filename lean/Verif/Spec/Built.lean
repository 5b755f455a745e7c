import Verif.Spec.Reload

/-! Drawings that a program makes from a new drawing (C63). -/

namespace Dxf

variable {Img : Type}

/-- An entity that comes back from a file of version `v`: the conditions of C21 and C26. -/
def Entity.Fair (v : Version) (e : Entity) : Prop :=
  e.toFlat.Proper ∧ ¬ e.toFlat.OldRotated v ∧ ExtGroup.AllPlain e.entry.ext ∧ e.Whole v

/-- A table entry that comes back: the conditions of C20. -/
def TName.Fair : (t : TName) → t.Item → Prop
  | .layer, x => ExtGroup.AllPlain x.ext ∧ (x.fields 3 : I16).toInt ≠ -32768
  | _, x => ExtGroup.AllPlain x.ext

/-- A block that comes back from a file of version `v`: the conditions of C24, and its entities come
back. -/
def Block.Fair (v : Version) (b : Block) : Prop :=
  ExtGroup.AllPlain b.entry.ext ∧ (.r14 ≤ v → ∀ g ∈ b.entry.ext, ExtItem.NoZeroList g.items) ∧
  ∀ e ∈ b.entities, e.Fair v

/-- An object that comes back from a file of version `v`: the conditions of C22. -/
def Object.Fair (v : Version) (o : Object) : Prop :=
  .r13 ≤ v → o.Regular ∧ ExtGroup.AllPlain o.entry.ext

/-- The operation adds only what comes back from a file of version `v`. -/
def Op.Fair (v : Version) : Op → Prop
  | .add t x => t.Fair x
  | .addBlock b => b.Fair v
  | .addEntity e => e.Fair v
  | .addObject o => o.Fair v
  | _ => True

namespace Drawing

/-- The attributes, vertices and layer names in the entities and objects of the drawing. -/
def details (d : Drawing Img) : Nat :=
  (d.entities.map fun e => e.extra.atts.length + e.extra.verts.length).sum +
  (d.objects.map fun o => 2 * o.layers.length).sum

/-- The items of the drawing were changed in place, as `layers_mut`, `entities_mut` and the like
allow, to items that come back from a file of version `v`; handles were left as they are. -/
structure Changed (v : Version) (d d' : Drawing Img) : Prop where
  header : d'.header = d.header
  classes : d'.classes = d.classes
  thumbnail : d'.thumbnail = d.thumbnail
  tables : ∀ t, List.Forall₂ (fun a b => t.handle b = t.handle a ∧ t.Fair b) (d.tables t) (d'.tables t)
  blocks : List.Forall₂ (fun a b => b.handle = a.handle ∧ b.Fair v ∧
    b.entities.map Entity.handle = a.entities.map Entity.handle) d.blocks d'.blocks
  entities : List.Forall₂ (fun a b => b.handle = a.handle ∧ b.Fair v) d.entities d'.entities
  objects : List.Forall₂ (fun a b => b.handle = a.handle ∧ b.Fair v) d.objects d'.objects

/-- The drawings that a program makes from a new drawing, by adding what comes back from a file of
version `v`, by removing, clearing and normalizing, by changing items in place, and by changing the
header (except for the number of the next handle), the classes and the thumbnail in any way.  The
number counts what was done. -/
inductive Made (v : Version) : Nat → Drawing Img → Prop
  | new {h0 : Header} {order : List Str} {d : Drawing Img} :
      h0.Fresh → Drawing.new h0 order = .ok d → Made v (41 + 2 * order.length) d
  | op {n : Nat} {op : Op} {d d' : Drawing Img} :
      Made v n d → op.Fair v → op.run d = .ok d' → Made v (n + op.cost) d'
  | change {n : Nat} {d d' : Drawing Img} :
      Made v n d → Changed v d d' → Made v (n + d'.details) d'
  | header {n : Nat} {h : Header} {d : Drawing Img} :
      Made v n d → h 141 = d.header 141 → Made v n { d with header := h }
  | classes {n : Nat} {cs : List Class} {d : Drawing Img} :
      Made v n d → Made v n { d with classes := cs }
  | thumbnail {n : Nat} {img : Option Img} {d : Drawing Img} :
      Made v n d → Made v n { d with thumbnail := img }

/-- The header, the classes and the thumbnail come back: the conditions of C19, C23 and C34.  R11 is
read as R12 (C29). -/
structure Ready (codec : ImageCodec Img) (d : Drawing Img) : Prop where
  version : d.version ≠ .r11
  dates : d.header.DatesReadable
  classNames : d.version ≤ .r13 → ∀ c ∈ d.classes, c.recordName ≠ str!"ENDSEC"
  classCounts : .r2004 ≤ d.version → ∀ c ∈ d.classes, c.instanceCount.toNat < 2 ^ 31
  thumbnail : .r2000 ≤ d.version → ∀ img, d.thumbnail = some img → ∃ data,
    codec.toBmp img = .ok data ∧ Bitmap.WellFormed data ∧ codec.load data = .ok img

end Drawing

end Dxf
