import Verif.Spec.Lookup
import Verif.Spec.Header

/-! What is expected of saving a drawing in a newer version (C64). -/

namespace Dxf

variable {Img : Type}

/-- The last version whose files contain entities of the kind: text along an arc and remote text are
for R2000 only. -/
def EName.ends : EName → Version
  | .arcAlignedText => .r2000
  | .rText => .r2000
  | _ => .r2018

/-- The last version whose files contain the item. -/
def DrawingItem.ends : DrawingItem → Version
  | .entity e => e.kind.ends
  | _ => .r2018

/-- The last version whose files contain the field of an entity: the elevation (5) was given up with
R13, since then it is part of the coordinates; for a light-weight polyline it is written always.  A
polyline (18) says that vertices follow up to R13. -/
def EName.until : EName → Nat → Version
  | .lwPolyline, _ => .r2018
  | .polyline, 18 => .r13
  | _, 5 => .r12
  | _, _ => .r2018

/-- The last version whose files contain the field of a table entry: fields of viewports are written
up to R2004. -/
def TName.until : TName → Nat → Version
  | .viewPort, i => if i ∈ [12, 20, 22, 23, 24, 25, 28] then .r2004 else .r2018
  | _, _ => .r2018

/-- The last version whose files contain the field of an object: those of fields are written up to
R2007. -/
def OName.until : OName → Nat → Version
  | .field, i => if i ∈ [6, 9, 10, 11, 12, 13] then .r2007 else .r2018
  | _, _ => .r2018

/-- The last version whose files contain the header variable. -/
def Header.until (i : Nat) : Version :=
  if i ∈ List.range' 263 14 then .r10
  else if i = 140 then .r12
  else if i ∈ [15, 17, 26, 76, 78, 116, 134, 138, 139, 199] then .r14
  else if i = 135 then .r2013
  else .r2018

/-- Of the item `x`, whatever has come back in `y` from a file of version `v` has come back in `z`
from a file of version `w`, of the fields that version `w` still has.  Fields that do not always come
back (C20, C21, C22) are left out. -/
def DrawingItem.Outlives (v w : Version) : DrawingItem → DrawingItem → DrawingItem → Prop
  | .table t a, y, z => ∃ b c, y = .table t b ∧ z = .table t c ∧
    (∀ i, w ≤ t.until i → (t = .layer → i ≠ 3 ∧ i ≠ 9) → Representable (t.kind.all true) v a.fields i →
      Representable (t.kind.all true) w a.fields i → b.fields i = a.fields i →
      c.fields i = a.fields i) ∧
    (b.ext = a.ext → c.ext = a.ext) ∧ (b.xdata = a.xdata → c.xdata = a.xdata)
  | .block a, y, z => ∃ b c, y = .block b ∧ z = .block c ∧
    (∀ i, Representable (Blocks.kind.all true) v a.entry.fields i →
      Representable (Blocks.kind.all true) w a.entry.fields i → b.entry.fields i = a.entry.fields i →
      c.entry.fields i = a.entry.fields i) ∧
    (b.entry.ext = a.entry.ext → c.entry.ext = a.entry.ext) ∧
    ((∀ e ∈ a.entities, w ≤ e.kind.ends) → b.entities.length ≤ c.entities.length)
  | .entity ⟨⟨k, n, a⟩, x⟩, y, z => ∃ b c x' x'', y = .entity ⟨⟨k, n, b⟩, x'⟩ ∧
    z = .entity ⟨⟨k, n, c⟩, x''⟩ ∧
    (∀ i, w ≤ k.until i → i ∉ k.lost v → i ∉ k.lost w →
      Representable (k.statements (Entity.num ⟨⟨k, n, a⟩, x⟩) true) v a.fields i →
      Representable (k.statements (Entity.num ⟨⟨k, n, a⟩, x⟩) true) w a.fields i →
      b.fields i = a.fields i → c.fields i = a.fields i) ∧
    (b.ext = a.ext → c.ext = a.ext) ∧ x'.atts.length = x''.atts.length ∧
    x'.verts.length = x''.verts.length
  | .object ⟨k, a, _⟩, y, z => ∃ b c x, y = .object ⟨k, b, x⟩ ∧ z = .object ⟨k, c, x⟩ ∧
    (∀ i, w ≤ k.until i → i ∉ k.lost v → i ∉ k.lost w → Representable k.statements v a.fields i →
      Representable k.statements w a.fields i → b.fields i = a.fields i → c.fields i = a.fields i) ∧
    (b.ext = a.ext → c.ext = a.ext) ∧ (b.xdata = a.xdata → c.xdata = a.xdata)

/-- Of the class `x`, whatever has come back in `y` from a file of version `v` has come back in `z`
from a file of version `w`.  The version number is written up to R13. -/
def Class.Outlives (w : Version) (x y z : Class) : Prop :=
  z.recordName = x.recordName ∧ z.className = x.className ∧ z.applicationName = x.applicationName ∧
  z.wasClassLoadedWithFile = x.wasClassLoadedWithFile ∧ z.isEntity = x.isEntity ∧
  (y.proxyCapabilityFlags = x.proxyCapabilityFlags →
    z.proxyCapabilityFlags = x.proxyCapabilityFlags) ∧
  (y.instanceCount = x.instanceCount → z.instanceCount = x.instanceCount) ∧
  (w ≤ .r13 → y.versionNumber = x.versionNumber → z.versionNumber = x.versionNumber)

/-- The drawing with another version. -/
def Drawing.withVersion (d : Drawing Img) (w : Version) : Drawing Img :=
  { d with header := d.header.set 0 w }

end Dxf
