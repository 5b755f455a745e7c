import Verif.Model.File
import Verif.Spec.Drawing
import Verif.Spec.Tables
import Verif.Spec.Block
import Verif.Spec.Class
import Verif.Spec.Objects
import Verif.Spec.Bitmap

/-! What is expected of saving a drawing and loading it (C41, C42).

A loaded drawing is described in two steps: the content of the file is what was saved, apart from
what the version does not write (`Drawing.Restored`), and the drawing is the content of the file
with handles for the items that have none and with entries for missing names
(`Drawing.Completed`). -/

namespace Dxf

/-- `b` is the table entry `a` as restored from a file of version `v`.  The colour of a layer (3)
and whether it is on (9) are written in one number; they come back if the colour is positive. -/
def TName.Restored : (t : TName) → Version → Bool → t.Item → t.Item → Prop
  | .layer, v, wh, a, b => Dxf.Restored Tables.layer v wh [3, 9] a b ∧
    (0 < (a.fields 3 : I16).toInt → b.fields 3 = a.fields 3 ∧ b.fields 9 = a.fields 9)
  | t, v, wh, a, b => Dxf.Restored t.kind v wh [] a b

/-- A table entry that was read gets a handle if it has none. -/
def TName.Handled (t : TName) (x y : t.Item) : Prop :=
  if t.handle x = 0#64 then ∃ h, y = t.setHandle x h else y = x

/-- An object that was read gets a handle if it has none. -/
def Object.Handled (x y : Object) : Prop :=
  if x.handle = 0#64 then ∃ h, y = x.setHandle h else y = x

/-- A block that was read gets a handle if it has none; its entities always get new ones. -/
def Block.Handled (x y : Block) : Prop :=
  ∃ es, List.Forall₂ (fun e e' => ∃ h, e' = e.setHandle h) x.entities es ∧
    if x.handle = 0#64 then ∃ h, y = { x.setHandle h with entities := es }
    else y = { x with entities := es }

/-- The attached entities without their handles. -/
def Extra.unhandled (x : Extra) : Extra := { x with
  seqend := 0#64
  atts := x.atts.map fun a => { a with handle := 0#64 }
  verts := x.verts.map fun v => { v with handle := 0#64 } }

/-- An entity that was read gets a handle if it has none, and with it the attached entities do. -/
def Entity.Handled (x y : Entity) : Prop :=
  if x.handle = 0#64 then
    ∃ h, y.toFlat = (x.setHandle h).toFlat ∧ y.extra.unhandled = x.extra.unhandled
  else y = x

namespace Drawing

variable {Img : Type}

/-- The entries of a table that are written: there are no block records before R13. -/
def filed (d : Drawing Img) (t : TName) : List t.Item :=
  if t = .blockRecord ∧ ¬ .r13 ≤ d.version then [] else d.tables t

/-- The contents of `p` are those of `d` as restored from a file of the version of `d`.  What is
not written of the header has the value of `h0`, the value of `Header::default()`. -/
structure Restored (h0 : Header) (d p : Drawing Img) : Prop where
  header : ∀ i, Representable Header.known d.version d.header i →
    p.header i = if Written Header.known d.version d.header i then d.header i else h0 i
  classes : p.classes = d.classes.map (Class.visible d.version)
  tables : ∀ t : TName, List.Forall₂ (t.Restored d.version d.writeHandles) (d.filed t) (p.tables t)
  blocks : List.Forall₂ (Block.Restored d.version d.writeHandles) d.blocks p.blocks
  entities : List.Forall₂ (Entity.Restored d.version d.writeHandles)
    (d.entities.filter fun e => e.kind.supported d.version) p.entities
  objects : List.Forall₂ (Object.Restored d.version)
    (if .r13 ≤ d.version then d.objects.filter fun o => o.kind.supported d.version else [])
    p.objects
  thumbnail : p.thumbnail = if .r2000 ≤ d.version then d.thumbnail else none

/-- `d` is `p` with handles for the items without one and, after the entries of each table, default
entries for the names that are used but not there, each once; there is one more block record for
each block, and before the objects there is a default multiline style for each name that entities
use. -/
structure Completed (p d : Drawing Img) : Prop where
  header : ∀ i, i ≠ 141 → d.header i = p.header i
  classes : d.classes = p.classes
  tables : ∀ t : TName, t ≠ .blockRecord → ∃ items new, d.tables t = items ++ new ∧
    List.Forall₂ t.Handled (p.tables t) items ∧ (new.map t.name).Nodup ∧
    ∀ x ∈ new, p.has t (t.name x) = false ∧ ∃ h, x = t.setHandle (t.named (t.name x)) h
  records : ∃ items new, d.tables .blockRecord = items ++ new ∧
    List.Forall₂ (TName.Handled .blockRecord) (p.tables .blockRecord) items ∧
    List.Forall₂ (fun (b : Block) x =>
      ∃ h, x = TName.setHandle .blockRecord (TName.named .blockRecord b.name) h) p.blocks new
  blocks : List.Forall₂ Block.Handled p.blocks d.blocks
  entities : List.Forall₂ Entity.Handled p.entities d.entities
  objects : ∃ new items, d.objects = new ++ items ∧
    List.Forall₂ Object.Handled p.objects items ∧ (new.map Object.styleName).Nodup ∧
    (∀ o ∈ new, ∃ e ∈ p.entities, ∃ s h, e.mlineStyle = some s ∧
      o = (Object.mlineStyle s).setHandle h) ∧
    ∀ e ∈ p.entities, ∀ s, e.mlineStyle = some s → ∃ o ∈ new, o.styleName = some s
  thumbnail : d.thumbnail = p.thumbnail

/-- So many handles are sufficient for loading the drawing. -/
def demand (d : Drawing Img) : Nat :=
  (TName.all.map fun t => 2 * (d.tables t).length).sum +
  (d.blocks.map fun b => 5 + 5 * b.entities.length).sum +
  (d.entities.map fun e => 18 + e.extra.atts.length + e.extra.verts.length).sum +
  (d.objects.map fun o => 7 + 2 * o.layers.length).sum

/-- Drawings all of whose parts can be read back: the conditions of C19 (dates), C20 (extension
groups, colours of layers), C21, C26 (entities), C22 (objects), C23 (classes), C24 (blocks) and C34
(the thumbnail, for which the image library must undo what it does).  R11 is read as R12 (C29). -/
structure Faithful (codec : ImageCodec Img) (d : Drawing Img) : Prop where
  version : d.version ≠ .r11
  dates : d.header.DatesReadable
  classNames : d.version ≤ .r13 → ∀ c ∈ d.classes, c.recordName ≠ str!"ENDSEC"
  classCounts : .r2004 ≤ d.version → ∀ c ∈ d.classes, c.instanceCount.toNat < 2 ^ 31
  tables : ∀ t, ∀ x ∈ d.tables t, ExtGroup.AllPlain x.ext
  colors : ∀ x ∈ d.tables .layer, (x.fields 3 : I16).toInt ≠ -32768
  blocks : ∀ b ∈ d.blocks, ExtGroup.AllPlain b.entry.ext ∧
    (.r14 ≤ d.version → ∀ g ∈ b.entry.ext, ExtItem.NoZeroList g.items)
  entities : ∀ e ∈ d.entities ++ d.blocks.flatMap Block.entities, e.toFlat.Proper ∧
    ¬ e.toFlat.OldRotated d.version ∧ ExtGroup.AllPlain e.entry.ext ∧ e.Whole d.version
  objects : .r13 ≤ d.version → ∀ o ∈ d.objects, o.Regular ∧ ExtGroup.AllPlain o.entry.ext
  thumbnail : .r2000 ≤ d.version → ∀ img, d.thumbnail = some img → ∃ data,
    codec.toBmp img = .ok data ∧ Bitmap.WellFormed data ∧ codec.load data = .ok img

end Drawing

end Dxf
