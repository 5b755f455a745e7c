import Mathlib.Data.List.Forall2
import Verif.Spec.Entities

/-! Specification vocabulary for entities that others are attached to. -/

namespace Dxf

/-- `a'` is the attribute `a` of an insert as restored from a file: its own fields; the text
attached to it only exists in versions in which `MText` does, and its handle is to be assigned
anew. -/
def Att.Restored (v : Version) (wh : Bool) (a a' : Att) : Prop :=
  ∃ b, EName.attribute.Restored 0 v wh ⟨Rec.child a.fields a.handle, [], []⟩ b ∧
    a' = ⟨Rec.bare b.fields, Rec.dflt _, autoReplaceHandle⟩

/-- `x'` is the vertex `x` of a polyline as restored from a file: its own fields, with the flags
adjusted to the kind of the polyline; its handle is to be assigned anew. -/
def Vert.Restored (v : Version) (wh : Bool) (polyFlags : I32) (x x' : Vert) : Prop :=
  ∃ b, EName.vertex.Restored 0 v wh
      ⟨Rec.child (Vert.adjust polyFlags x.fields) x.handle, [], []⟩ b ∧
    x' = ⟨Rec.bare b.fields, autoReplaceHandle⟩

/-- The text attached to an attribute, as it is written: with the owner, space and layer of the
attribute. -/
def mTextEntry (c : Rec commonDecls) (m : MTextRec) (xs : List XData) : Entry EName.mText.decls :=
  ⟨(((Rec.bare m).set 1 (c 0 : Handle)).set 2 (c 2 : Bool)).set 3 (c 3 : Str), [], xs⟩

/-- `m'` is the text `m` as restored from a file. -/
def mTextRestored (v : Version) (wh : Bool) (c : Rec commonDecls) (m m' : MTextRec) : Prop :=
  if EName.mText.supported v = true then
    ∃ xs b, EName.mText.Restored 0 v wh (mTextEntry c m xs) b ∧ m' = Rec.bare b.fields
  else m' = Rec.dflt _

/-- `x'` are the attached entities `x` of an entity as restored from a file. -/
def Extra.Restored (v : Version) (wh : Bool) : Flat → Extra → Extra → Prop
  | ⟨.attribute, _, e⟩, x, x' => ∃ m', mTextRestored v wh e.fields.common x.mtext m' ∧
      x' = { Extra.dflt with mtext := m' }
  | ⟨.attributeDefinition, _, e⟩, x, x' =>
      ∃ m', mTextRestored v wh e.fields.common x.mtext m' ∧ x' = { Extra.dflt with mtext := m' }
  | ⟨.insert, _, _⟩, x, x' => ∃ as, List.Forall₂ (Att.Restored v wh) x.atts as ∧
      x' = { Extra.dflt with atts := as }
  | ⟨.polyline, _, e⟩, x, x' =>
      ∃ vs, List.Forall₂ (Vert.Restored v wh (e.fields 21 : I32)) x.verts vs ∧
        x' = { Extra.dflt with verts := vs }
  | _, _, x' => x' = Extra.dflt

/-- The extended data of an entity comes after the entities attached to it, and is lost with
them. -/
def Entity.ownXData (v : Version) (wh : Bool) (e : Entity) : List XData :=
  if e.post v wh = [] then e.entry.xdata else []

/-- `e'` is the entity `e` as restored from a file of version `v`: of the same kind, with the
fields of C21, and with the same attached entities in the same order. -/
def Entity.Restored (v : Version) (wh : Bool) (e e' : Entity) : Prop :=
  ∃ b, e.kind.Restored e.num v wh { e.entry with xdata := e.ownXData v wh } b ∧
    ∃ x', Extra.Restored v wh e.toFlat e.extra x' ∧ e' = ⟨⟨e.kind, e.sub, b⟩, x'⟩

/-- Entities in which nothing goes astray when they are read back in version `v`: before R13
everything, later everything but inserts with attributes. -/
def Entity.Whole (v : Version) (e : Entity) : Prop :=
  EName.mText.supported v = true → e.kind = .insert → e.extra.atts = []

end Dxf
