import Verif.Spec.Reload
import Verif.Lemmas.Rd

/-! What is expected of saving and loading a drawing again and again (C61). -/

namespace Dxf

/-- `b` is `a` after any number of round trips through files of version `v`: every field with a
representable value has its value if the version writes it and the default value otherwise, except
the fields listed in `skip`; extension groups survive from R14 on (without the empty ones, if there
are none inside others), extended data from R2000 on. -/
def Entry.Kept {ds : List Decl} (stmts : List (GCmd ds)) (skip : List Nat) (v : Version)
    (a b : Entry ds) : Prop :=
  (∀ i, i ∉ skip → Representable stmts v a.fields i →
    b.fields i = if Written stmts v a.fields i then a.fields i else Rec.dflt ds i) ∧
  ((∀ g ∈ a.ext, ExtItem.NoEmptyList g.items) →
    b.ext = if .r14 ≤ v then a.ext.filter fun g => !g.items.isEmpty else []) ∧
  b.xdata = (if .r2000 ≤ v then a.xdata else [])

/-- A handle that is not null is kept. -/
def Handle.Kept (a b : Handle) : Prop := a ≠ 0#64 → b = a

/-- A table entry, except for its handle.  The colour of a layer (3) and whether it is on (9) are
written in one number.  From R2007 on it is not written that a viewport has its own coordinate
system (28), which is therefore written only once (29 to 35). -/
def TName.Kept : (t : TName) → Version → Bool → t.Item → t.Item → Prop
  | .layer, v, wh, a, b => Entry.Kept (Tables.layer.all wh) [1, 3, 9] v a b ∧
    (0 < (a.fields 3 : I16).toInt → b.fields 3 = a.fields 3 ∧ b.fields 9 = a.fields 9)
  | .viewPort, v, wh, a, b => Entry.Kept (Tables.viewPort.all wh)
    (if .r2007 ≤ v then [1, 29, 30, 31, 32, 33, 34, 35] else [1]) v a b
  | t, v, wh, a, b => Entry.Kept (t.kind.all wh) [1] v a b

/-- The specific fields of an entity that is attached to another one, except those listed in
`skip`. -/
def EName.ChildKept (k : EName) (skip : List Nat) (v : Version) (wh : Bool) (a b : Rec k.decls) :
    Prop :=
  ∀ i, 18 ≤ i → i ∉ skip → Representable (k.statements 0 wh) v (Rec.bare a) i →
    b i = if Written (k.statements 0 wh) v (Rec.bare a) i then a i else Rec.dflt k.decls i

/-- The texts, attributes and vertices that are attached to an entity of kind `k`, in order.  (The
flags of a vertex, 22, are adjusted to the kind of the polyline.) -/
def Extra.Kept (v : Version) (wh : Bool) (k : EName) (x x' : Extra) : Prop :=
  match k with
  | .attribute => x'.atts = [] ∧ x'.verts = [] ∧ (EName.mText.supported v = true →
      EName.mText.ChildKept (EName.mText.lost v) v wh x.mtext x'.mtext)
  | .attributeDefinition => x'.atts = [] ∧ x'.verts = [] ∧ (EName.mText.supported v = true →
      EName.mText.ChildKept (EName.mText.lost v) v wh x.mtext x'.mtext)
  | .insert => x'.verts = [] ∧ List.Forall₂ (fun a a' : Att =>
      EName.attribute.ChildKept (EName.attribute.lost v) v wh a.fields a'.fields) x.atts x'.atts
  | .polyline => x'.atts = [] ∧ List.Forall₂ (fun a a' : Vert =>
      EName.vertex.ChildKept [22] v wh a.fields a'.fields) x.verts x'.verts
  | _ => x'.atts = [] ∧ x'.verts = []

/-- An entity, except for its handle. -/
def Entity.Kept (v : Version) (wh : Bool) (e e' : Entity) : Prop :=
  ∃ b x', e' = ⟨⟨e.kind, e.sub, b⟩, x'⟩ ∧
    Entry.Kept (e.kind.statements e.num wh) (0 :: (e.kind.lost v ++ e.kind.packed)) v
      { e.entry with xdata := e.ownXData v wh } b ∧
    (∀ i ∈ e.kind.packed, b.fields i = e.entry.fields i) ∧
    Extra.Kept v wh e.kind e.extra x'

/-- A block, except for its handle, and the entities in it. -/
def Block.Kept (v : Version) (wh : Bool) (b b' : Block) : Prop :=
  Entry.Kept (Blocks.kind.all wh) [0] v { b.entry with xdata := [] } b'.entry ∧
  List.Forall₂ (Entity.Kept v wh) (b.entities.filter fun e => e.kind.supported v) b'.entities

/-- The lists and maps of an object.  The matrices of a `SpatialFilter` are transposed each time;
what else becomes of them is said in C39. -/
def OName.ListsKept (k : OName) (x x' : OExtra) : Prop :=
  match k with
  | .spatialFilter => x'.points = x.points
  | _ => x' = k.listsBack x

/-- An object, except for its handle. -/
def Object.Kept (v : Version) (o o' : Object) : Prop :=
  ∃ b x', o' = ⟨o.kind, b, x'⟩ ∧
    Entry.Kept o.kind.statements (0 :: o.kind.lost v) v o.entry b ∧
    o.kind.ListsKept o.extra x'

namespace Drawing

variable {Img : Type}

/-- `d'` is `d` after one or more round trips: what the version of `d` can express is there, in the
same order and with the same handles.  After the entries of a table and before the objects there
may be additional ones that have been made for missing names or for blocks.  What the version does
not write of the header has a default value. -/
structure Kept (d d' : Drawing Img) : Prop where
  header : ∃ h0 : Header, h0.Fresh ∧ ∀ i, i ≠ 141 →
    Representable Header.known d.version d.header i →
    d'.header i = if Written Header.known d.version d.header i then d.header i else h0 i
  classes : d'.classes = d.classes.map (Class.visible d.version)
  tables : ∀ t : TName, ∃ items new, d'.tables t = items ++ new ∧
    List.Forall₂ (fun a b => t.Kept d.version d.writeHandles a b ∧
      (d.writeHandles = true → (t.handle a).Kept (t.handle b))) (d.filed t) items ∧
    ∀ x ∈ new, ∃ s, t.Kept d.version d.writeHandles (t.named s) x
  blocks : List.Forall₂ (fun a b => Block.Kept d.version d.writeHandles a b ∧
    (.r13 ≤ d.version → a.handle.Kept b.handle)) d.blocks d'.blocks
  entities : List.Forall₂ (fun a b => Entity.Kept d.version d.writeHandles a b ∧
      (d.writeHandles = true → a.handle.Kept b.handle))
    (d.entities.filter fun e => e.kind.supported d.version) d'.entities
  objects : ∃ new items, d'.objects = new ++ items ∧
    List.Forall₂ (fun a b => Object.Kept d.version a b ∧ a.handle.Kept b.handle)
      (if .r13 ≤ d.version then d.objects.filter fun o => o.kind.supported d.version else [])
      items ∧
    ∀ x ∈ new, ∃ s, Object.Kept d.version (Object.mlineStyle s) x
  thumbnail : d'.thumbnail = if .r2000 ≤ d.version then d.thumbnail else none

/-- `d'` is `d` after `n` round trips: the drawing is saved as code pairs and loaded from them, each
time with a value `h0` of `Header::default()` and with enough handles left. -/
inductive Cycles (codec : ImageCodec Img) : Nat → Drawing Img → Drawing Img → Prop
  | none {d : Drawing Img} : Cycles codec 0 d d
  | more {n : Nat} {d d1 d2 : Drawing Img} {h0 : Header} {order : List Str} {ps : List CodePair} :
      Cycles codec n d d1 → h0.Fresh → h0.DatesReadable → 41 + 2 * order.length < 2 ^ 64 →
      d1.next.toNat + d1.demand < 2 ^ 64 → d1.codePairs codec = .ok ps → load codec h0 order (toStream ps) = (.ok d2, []) →
      Cycles codec (n + 1) d d2

/-- Drawings that can be saved and loaded again and again: the dates and timestamps are among those
that the conversion to days reproduces (others change each time, see C44, until they are out of
range), and the colours of layers are positive. -/
structure Lasting (codec : ImageCodec Img) (d : Drawing Img) : Prop extends Faithful codec d where
  stamps : ∀ i ∈ [122, 123, 124, 125], Representable Header.known d.version d.header i
  positive : ∀ x ∈ d.tables .layer, 0 < (x.fields 3 : I16).toInt
  timestamps : ∀ o ∈ d.objects, o.kind = .layerIndex ∨ o.kind = .spatialIndex →
    Representable o.kind.statements d.version o.entry.fields 2

end Drawing

end Dxf
