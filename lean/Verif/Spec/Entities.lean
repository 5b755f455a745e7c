import Verif.Model.Entities
import Verif.Spec.Record
import Verif.Spec.ExtData

/-! Specification vocabulary for entities. -/

namespace Dxf

namespace EName

/-- All write statements of a kind; `n` as in `Entity.num`. -/
def statements (k : EName) (n : Nat) (writeHandles : Bool) : List (GCmd k.decls) :=
  commonHead k.kind.spec writeHandles ++ (commonCmds k.kind.spec writeHandles ++ k.kind.cmds n)

/-- Fields that do not survive, or not always.  Private fields that hold the length of a list
(their names begin with `__`) are recomputed when writing.

* `ProxyEntity`: the owner (1) is read into `object_id_1` (24), from R2000 on
  `image_byte_count` (11) is overwritten by `graphics_data_size` and the preview (12) is read into
  `graphics_data_string` (21), which also receives `entity_data_string` (23).
* `AttributeDefinition`, `Attribute`: in R2007 and R2008 the lock (36, 35) is read into the
  version (30, 22); the number of secondary attributes (40, 39) is a length.
* `Image`, `Wipeout`: the number of clipping vertices (31) is a length; the clipping vertices
  of a `Wipeout` (32) are not read as they are written.
* `Insert`: whether there are attributes (18) is recomputed.
* `Leader` (26), `Spline` (21, 22, 23), `Section` (27, 29): lengths.
* `MLine`: the vertices (27), segment directions (28) and miter directions (29) are read from
  other codes than they are written to, the vertices into the start point (25); 23, 30 and 32
  are lengths.
* `MText`: `line_type_scale` (9) is read into `column_width`; from R2004 on `color_24_bit` (13)
  and `color_name` (14) into the background colour; the number of columns (40) is replaced by
  the number of column heights.
* `OleFrame`, `Ole2Frame`: from R2000 on the preview (12) is read into the binary data (20, 25).
* `Section`: `image_byte_count` (11) is read into a vertex count.
* underlays: the points (28) are not read as they are written. -/
def lost : EName → Version → List Nat
  | .proxyEntity, v => if .r2000 ≤ v then [1, 11, 12, 21, 23, 24] else [1, 21, 23, 24]
  | .attributeDefinition, v => if .r2010 ≤ v then [40] else if .r2007 ≤ v then [30, 36, 40] else []
  | .attribute, v => if .r2010 ≤ v then [39] else if .r2007 ≤ v then [22, 35, 39] else []
  | .image, _ => [31]
  | .insert, _ => [18]
  | .leader, _ => [26]
  | .mLine, _ => [23, 25, 27, 28, 29, 30, 32]
  | .mText, v => if .r2004 ≤ v then [9, 13, 14, 40] else [9, 40]
  | .oleFrame, v => if .r2000 ≤ v then [12, 20] else []
  | .ole2Frame, v => if .r2000 ≤ v then [12, 25] else []
  | .section, _ => [11, 27, 29]
  | .spline, _ => [21, 22, 23]
  | .dgnUnderlay, _ => [28]
  | .dwfUnderlay, _ => [28]
  | .pdfUnderlay, _ => [28]
  | .wipeout, _ => [31, 32]
  | _, _ => []

/-- Fields written together in one pair: the type of a dimension and three flags. -/
def packed : EName → List Nat
  | .dimension => [22, 32, 33, 34]
  | _ => []

/-- `b` is `a` as restored from a file of version `v`: every field with a representable value
has its value if the version writes it and the default value otherwise, except the fields that
are lost; extension groups survive from R14 on (without the empty ones), extended data from
R2000 on. -/
def Restored (k : EName) (n : Nat) (v : Version) (writeHandles : Bool) (a b : Entry k.decls) : Prop :=
  (∀ i, i ∉ k.lost v → i ∉ k.packed → Representable (k.statements n writeHandles) v a.fields i →
    b.fields i = if Written (k.statements n writeHandles) v a.fields i then a.fields i
      else Rec.dflt k.decls i) ∧
  (∀ i ∈ k.packed, b.fields i = a.fields i) ∧
  b.ext = (if .r14 ≤ v then ExtGroup.kept a.ext else []) ∧
  b.xdata = (if .r2000 ≤ v then a.xdata else [])

end EName

/-- The kind of a dimension is one of five; other entities have no such number. -/
def Flat.Proper (e : Flat) : Prop :=
  if e.kind = .dimension then e.sub ∈ [1, 2, 3, 4, 5] else e.sub = 0

/-- A rotated dimension in a version before R13. -/
def Flat.OldRotated (e : Flat) (v : Version) : Prop :=
  e.kind = .dimension ∧ e.sub = 1 ∧ ¬ .r13 ≤ v

end Dxf
