import Verif.Model.Tables
import Verif.Model.Block
import Verif.Model.Class
import Verif.Model.Objects
import Verif.Spec.Header

/-! The struct `Drawing` and its operations, src/drawing.rs.

`Img` stands for `image::DynamicImage`; nothing but its presence matters here. -/

namespace Dxf

/-! ### The tables -/

/-- The nine tables of a drawing. -/
inductive TName where
  | appId | blockRecord | dimStyle | lineType | layer | style | ucs | view | viewPort
  deriving DecidableEq, Repr

namespace TName

/-- The table of that name. -/
def kind : TName → TableKind
  | .appId => Tables.appId
  | .blockRecord => Tables.blockRecord
  | .dimStyle => Tables.dimStyle
  | .lineType => Tables.lineType
  | .layer => Tables.layer
  | .style => Tables.style
  | .ucs => Tables.ucs
  | .view => Tables.view
  | .viewPort => Tables.viewPort

/-- All of them, in the order of writing. -/
def all : List TName := [.appId, .blockRecord, .dimStyle, .lineType, .layer, .style, .ucs, .view,
  .viewPort]

/-- An entry of the table. -/
abbrev Item (t : TName) : Type := TableItem t.kind

/-- The field `name`. -/
def name : (t : TName) → t.Item → Str
  | .appId, x => x.fields 0
  | .blockRecord, x => x.fields 0
  | .dimStyle, x => x.fields 0
  | .lineType, x => x.fields 0
  | .layer, x => x.fields 0
  | .style, x => x.fields 0
  | .ucs, x => x.fields 0
  | .view, x => x.fields 0
  | .viewPort, x => x.fields 0

/-- `name: String::from(name), ..Default::default()`. -/
def named : (t : TName) → Str → t.Item
  | .appId, s => ⟨Rec.set (Rec.dflt _) 0 s, [], []⟩
  | .blockRecord, s => ⟨Rec.set (Rec.dflt _) 0 s, [], []⟩
  | .dimStyle, s => ⟨Rec.set (Rec.dflt _) 0 s, [], []⟩
  | .lineType, s => ⟨Rec.set (Rec.dflt _) 0 s, [], []⟩
  | .layer, s => ⟨Rec.set (Rec.dflt _) 0 s, [], []⟩
  | .style, s => ⟨Rec.set (Rec.dflt _) 0 s, [], []⟩
  | .ucs, s => ⟨Rec.set (Rec.dflt _) 0 s, [], []⟩
  | .view, s => ⟨Rec.set (Rec.dflt _) 0 s, [], []⟩
  | .viewPort, s => ⟨Rec.set (Rec.dflt _) 0 s, [], []⟩

/-- The field `handle`. -/
def handle : (t : TName) → t.Item → Handle
  | .appId, x => x.fields 1
  | .blockRecord, x => x.fields 1
  | .dimStyle, x => x.fields 1
  | .lineType, x => x.fields 1
  | .layer, x => x.fields 1
  | .style, x => x.fields 1
  | .ucs, x => x.fields 1
  | .view, x => x.fields 1
  | .viewPort, x => x.fields 1

/-- Assigns the field `handle`. -/
def setHandle : (t : TName) → t.Item → Handle → t.Item
  | .appId, x, h => { x with fields := x.fields.set 1 h }
  | .blockRecord, x, h => { x with fields := x.fields.set 1 h }
  | .dimStyle, x, h => { x with fields := x.fields.set 1 h }
  | .lineType, x, h => { x with fields := x.fields.set 1 h }
  | .layer, x, h => { x with fields := x.fields.set 1 h }
  | .style, x, h => { x with fields := x.fields.set 1 h }
  | .ucs, x, h => { x with fields := x.fields.set 1 h }
  | .view, x, h => { x with fields := x.fields.set 1 h }
  | .viewPort, x, h => { x with fields := x.fields.set 1 h }

end TName

/-! ### Normalizing one item -/

/-- Models `default_if_empty`, src/helper_functions.rs:205-209. -/
def defaultIfEmpty (s dflt : Str) : Str := if s.isEmpty then dflt else s

/-- `x <= 0.0`: false for NaN. -/
def F64.nonpos (x : F64) : Bool := !x.isNan && (x.neg || x.bits.toNat % 2 ^ 63 == 0)

/-- Models `ensure_positive_or_default`, src/helper_functions.rs:211-215. -/
def ensurePositive (x dflt : F64) : F64 := if x.nonpos then dflt else x

/-- Models `ensure_positive_or_default_i32` and `_i16`, src/helper_functions.rs:217-227. -/
def ensurePositiveInt {n : Nat} (x dflt : BitVec n) : BitVec n := if x.toInt ≤ 0 then dflt else x

/-- `1.0` -/
def F64.unit : F64 := ⟨0x3ff0000000000000#64⟩

/-- The three statements for a vector in `ViewPort::normalize`. -/
def Point.ensurePositive (p : Point) : Point :=
  ⟨Dxf.ensurePositive p.x .unit, Dxf.ensurePositive p.y .unit, Dxf.ensurePositive p.z .unit⟩

/-- The match on the colour in `Layer::normalize`: no layer has the colour of its layer or
block. -/
def layerColor (c : I16) : I16 := if c = 0#16 ∨ c = 256#16 then 7#16 else c

/-- Models `Layer::normalize`, src/table.rs:10-16. -/
def normalizeLayer (r : Rec Tables.layerDecls) : Rec Tables.layerDecls :=
  (r.set 4 (defaultIfEmpty (r 4) str!"CONTINUOUS")).set 3 (layerColor (r 3))

/-- Models `Style::normalize`, src/table.rs:24-27. -/
def normalizeStyle (r : Rec Tables.styleDecls) : Rec Tables.styleDecls :=
  (r.set 3 (ensurePositive (r 3) .zero)).set 4 (ensurePositive (r 4) .unit)

/-- Models `View::normalize`, src/table.rs:35-39. -/
def normalizeView (r : Rec Tables.viewDecls) : Rec Tables.viewDecls :=
  ((r.set 3 (ensurePositive (r 3) .unit)).set 5 (ensurePositive (r 5) .unit)).set 8
    (ensurePositive (r 8) .unit)

/-- Models `ViewPort::normalize`, src/table.rs:47-59. -/
def normalizeViewPort (r : Rec Tables.viewPortDecls) : Rec Tables.viewPortDecls :=
  ((((((r.set 7 (Point.ensurePositive (r 7))).set 8 (Point.ensurePositive (r 8))).set 11
    (ensurePositive (r 11) .unit)).set 12 (ensurePositive (r 12) .unit)).set 13
    (ensurePositive (r 13) ⟨0x4049000000000000#64⟩)).set 21
    (ensurePositiveInt (r 21 : I16) 3#16)).set 19 (ensurePositiveInt (r 19 : I32) 1000#32)

/-- The `normalize` of the entries of a table; the other tables have none. -/
def TName.normalize : (t : TName) → t.Item → t.Item
  | .layer, x => { x with fields := normalizeLayer x.fields }
  | .style, x => { x with fields := normalizeStyle x.fields }
  | .view, x => { x with fields := normalizeView x.fields }
  | .viewPort, x => { x with fields := normalizeViewPort x.fields }
  | _, x => x

/-- Models `Header::normalize`, src/header.rs:12-20. -/
def Header.normalize (r : Header) : Header :=
  ((((((r.set 19 (ensurePositive (r 19) ⟨0x3fc999999999999a#64⟩)).set 20
    (ensurePositive (r 20) ⟨0x3fa999999999999a#64⟩)).set 21
    (defaultIfEmpty (r 21) str!"STANDARD")).set 22 (defaultIfEmpty (r 22) str!"0")).set 23
    (defaultIfEmpty (r 23) str!"BYLAYER")).set 65 (defaultIfEmpty (r 65) str!"STANDARD")).set 111
    (defaultIfEmpty (r 111) str!".")

/-! ### Blocks, entities and objects -/

namespace Block

/-- The field `handle`. -/
def handle (b : Block) : Handle := (b.entry.fields 0 : Handle)
/-- Assigns the field `handle`. -/
def setHandle (b : Block) (h : Handle) : Block :=
  { b with entry := { b.entry with fields := b.entry.fields.set 0 h } }
/-- Models `Block::normalize`, src/block.rs:95-97. -/
def normalize (b : Block) : Block :=
  { b with entry := { b.entry with
    fields := b.entry.fields.set 2 (defaultIfEmpty (b.entry.fields 2) str!"0") } }

end Block

namespace Entity

/-- The field `common.handle`. -/
def handle (e : Entity) : Handle := (e.entry.fields.common 0 : Handle)
/-- Assigns the field `common.handle`. -/
def setHandle (e : Entity) (h : Handle) : Entity :=
  { e with entry := { e.entry with fields := e.entry.fields.set 0 h } }
/-- The field `common.layer`. -/
def layer (e : Entity) : Str := (e.entry.fields.common 3 : Str)
/-- The field `common.line_type_name`. -/
def lineType (e : Entity) : Str := (e.entry.fields.common 4 : Str)
/-- Models `Entity::normalize`, src/entity.rs:387-389, 404-407. -/
def normalize (e : Entity) : Entity :=
  { e with entry := { e.entry with fields := e.entry.fields.set 3 (defaultIfEmpty e.layer str!"0") } }

/-- The name looked for by `ensure_mline_style_is_present_for_entity`, src/drawing.rs:755-757. -/
def mlineStyle : Entity → Option Str
  | ⟨⟨.mLine, _, x⟩, _⟩ => some (x.fields 18)
  | _ => none

/-- The name determined by `ensure_dimension_style_is_present_for_entity`,
src/drawing.rs:768-785. -/
def dimStyle : Entity → Option Str
  | ⟨⟨.dimension, _, x⟩, _⟩ => some (x.fields 31)
  | ⟨⟨.leader, _, x⟩, _⟩ => some (x.fields 18)
  | ⟨⟨.tolerance, _, x⟩, _⟩ => some (x.fields 18)
  | _ => none

/-- The name determined by `ensure_text_style_is_present_for_entity`, src/drawing.rs:852-864. -/
def textStyle : Entity → Option Str
  | ⟨⟨.arcAlignedText, _, x⟩, _⟩ => some (x.fields 21)
  | ⟨⟨.attribute, _, x⟩, _⟩ => some (x.fields 29)
  | ⟨⟨.attributeDefinition, _, x⟩, _⟩ => some (x.fields 25)
  | ⟨⟨.mText, _, x⟩, _⟩ => some (x.fields 25)
  | ⟨⟨.text, _, x⟩, _⟩ => some (x.fields 25)
  | _ => none

end Entity

namespace Object

/-- The field `common.handle`. -/
def handle (o : Object) : Handle := (o.entry.fields 0 : Handle)
/-- Assigns the field `common.handle`. -/
def setHandle (o : Object) (h : Handle) : Object :=
  { o with entry := { o.entry with fields := o.entry.fields.set 0 h } }

/-- The `layer_names` of a `LayerFilter` or `LayerIndex`, src/drawing.rs:800-814. -/
def layers : Object → List Str
  | ⟨.layerFilter, x, _⟩ => x.fields 2
  | ⟨.layerIndex, x, _⟩ => x.fields 3
  | _ => []

/-- The `style_name` of an `MLineStyle`. -/
def styleName : Object → Option Str
  | ⟨.mLineStyle, x, _⟩ => some (x.fields 2)
  | _ => none

/-- The `plot_view_name` of `PlotSettings`. -/
def viewName : Object → Option Str
  | ⟨.plotSettings, x, _⟩ => some (x.fields 5)
  | _ => none

/-- `Object::new(ObjectType::MLineStyle(MLineStyle { style_name, ..Default::default() }))`. -/
def mlineStyle (name : Str) : Object :=
  ⟨.mLineStyle, ⟨Rec.set (Rec.dflt _) 2 name, [], []⟩, {}⟩

end Object

/-! ### The drawing -/

/-- Models `Drawing`, src/drawing.rs:42-79. -/
structure Drawing (Img : Type) where
  header : Header
  classes : List Class
  tables : (t : TName) → List t.Item
  blocks : List Block
  entities : List Entity
  objects : List Object
  thumbnail : Option Img

namespace Drawing

variable {Img : Type}

/-- The field `header.next_available_handle`. -/
def next (d : Drawing Img) : Handle := (d.header 141 : Handle)

/-- Models `next_handle`, src/drawing.rs:654-658, with `next_handle_value`, src/handle.rs:9-11; an
overflow panics. -/
def nextHandle (d : Drawing Img) : Except DxfErr (Handle × Drawing Img) :=
  if d.next = BitVec.allOnes 64 then .error .panic
  else .ok (d.next, { d with header := d.header.set 141 (d.next + 1#64) })

/-- Replaces one table. -/
def setTable (d : Drawing Img) (t : TName) (l : List t.Item) : Drawing Img :=
  { d with tables := fun t' => if h : t = t' then h ▸ l else d.tables t' }

/-- `self.__….push(x)`. -/
def push (d : Drawing Img) (t : TName) (x : t.Item) : Drawing Img :=
  d.setTable t (d.tables t ++ [x])

/-- Whether there is an entry of that name. -/
def has (d : Drawing Img) (t : TName) (name : Str) : Bool :=
  (d.tables t).any fun x => t.name x == name

/-- `ensure_*_is_present` for a table whose entries refer to nothing: src/drawing.rs:739-754,
786-793, 844-851, 870-903. -/
def ensurePlain (d : Drawing Img) (t : TName) (name : Str) : Except DxfErr (Drawing Img) :=
  if d.has t name then .ok d
  else do
    let (h, d) ← d.nextHandle
    return d.push t (t.setHandle (t.named name) h)

/-- Models the `add_*_no_handle_set` of the tables, src/drawing.rs:691-738; only a layer refers to
something. -/
def addNoHandle (d : Drawing Img) : (t : TName) → t.Item → Except DxfErr (Drawing Img)
  | .layer, x => do
    let d ← d.ensurePlain .lineType (x.fields 4)
    return d.push .layer x
  | t, x => .ok (d.push t x)

/-- Models the `add_*` of the tables, src/drawing.rs:240-379.  Instead of a reference, the stored
entry is returned. -/
def add (d : Drawing Img) (t : TName) (x : t.Item) : Except DxfErr (t.Item × Drawing Img) := do
  let (h, d) ← d.nextHandle
  let x := t.setHandle x h
  let d ← d.addNoHandle t x
  return (x, d)

/-- Models the `ensure_*_is_present` of the tables, src/drawing.rs:739-754, 786-793, 815-822,
844-851, 870-903. -/
def ensure (d : Drawing Img) (t : TName) (name : Str) : Except DxfErr (Drawing Img) :=
  if d.has t name then .ok d
  else do
    let (_, d) ← d.add t (t.named name)
    return d

/-- One after the other. -/
def ensureAll (d : Drawing Img) (t : TName) (names : List Str) : Except DxfErr (Drawing Img) :=
  names.foldlM (fun d name => d.ensure t name) d

/-- Models `add_object_no_handle_set`, src/drawing.rs:683-690. -/
def addObjectNoHandle (d : Drawing Img) (o : Object) : Except DxfErr (Drawing Img) := do
  let d ← d.ensureAll .layer o.layers
  let d ← d.ensureAll .lineType o.styleName.toList
  let d ← d.ensureAll .style o.styleName.toList
  let d ← d.ensureAll .view o.viewName.toList
  return { d with objects := d.objects ++ [o] }

/-- Models `add_object`, src/drawing.rs:450-457. -/
def addObject (d : Drawing Img) (o : Object) : Except DxfErr (Object × Drawing Img) := do
  let (h, d) ← d.nextHandle
  let o := o.setHandle h
  let d ← d.addObjectNoHandle o
  return (o, d)

/-- Models `ensure_mline_style_is_present_for_entity`, src/drawing.rs:755-767. -/
def ensureMLineStyle (d : Drawing Img) : Option Str → Except DxfErr (Drawing Img)
  | none => .ok d
  | some name =>
    if d.objects.any fun o => o.styleName == some name then .ok d
    else do
      let (_, d) ← d.addObject (.mlineStyle name)
      return d

/-- Models `add_entity_no_handle_set`, src/drawing.rs:674-682. -/
def addEntityNoHandle (d : Drawing Img) (e : Entity) : Except DxfErr (Drawing Img) := do
  let d ← d.ensureMLineStyle e.mlineStyle
  let d ← d.ensureAll .dimStyle e.dimStyle.toList
  let d ← d.ensure .layer e.layer
  let d ← d.ensure .lineType e.lineType
  let d ← d.ensureAll .style e.textStyle.toList
  return { d with entities := d.entities ++ [e] }

/-- A handle that is `AUTO_REPLACE_HANDLE` is replaced. -/
def childHandle (d : Drawing Img) (h : Handle) : Except DxfErr (Handle × Drawing Img) :=
  if h = autoReplaceHandle then d.nextHandle else .ok (h, d)

/-- The loop over the attributes, src/drawing.rs:417-421. -/
def attHandles : List Att → Drawing Img → Except DxfErr (List Att × Drawing Img)
  | [], d => .ok ([], d)
  | a :: as, d => do
    let (h, d) ← d.childHandle a.handle
    let (as, d) ← attHandles as d
    return ({ a with handle := h } :: as, d)

/-- The loop over the vertices, src/drawing.rs:425-429. -/
def vertHandles : List Vert → Drawing Img → Except DxfErr (List Vert × Drawing Img)
  | [], d => .ok ([], d)
  | v :: vs, d => do
    let (h, d) ← d.childHandle v.handle
    let (vs, d) ← vertHandles vs d
    return ({ v with handle := h } :: vs, d)

/-- Sets child handles, src/drawing.rs:413-432. -/
def childHandles (d : Drawing Img) (e : Entity) : Except DxfErr (Entity × Drawing Img) :=
  if e.kind = .insert then do
    let (s, d) ← d.nextHandle
    let (as, d) ← attHandles e.extra.atts d
    return ({ e with extra := { e.extra with
      seqend := s
      atts := as } }, d)
  else if e.kind = .polyline then do
    let (s, d) ← d.nextHandle
    let (vs, d) ← vertHandles e.extra.verts d
    return ({ e with extra := { e.extra with
      seqend := s
      verts := vs } }, d)
  else .ok (e, d)

/-- Models `add_entity`, src/drawing.rs:410-436. -/
def addEntity (d : Drawing Img) (e : Entity) : Except DxfErr (Entity × Drawing Img) := do
  let (h, d) ← d.nextHandle
  let (e, d) ← d.childHandles (e.setHandle h)
  let d ← d.addEntityNoHandle e
  return (e, d)

/-- Models `ensure_block_entity_handles_are_set`, src/drawing.rs:834-838. -/
def entityHandles : List Entity → Drawing Img → Except DxfErr (List Entity × Drawing Img)
  | [], d => .ok ([], d)
  | e :: es, d => do
    let (h, d) ← d.nextHandle
    let (es, d) ← entityHandles es d
    return (e.setHandle h :: es, d)

/-- Models `add_block_no_handle_set`, src/drawing.rs:666-673.  The stored block is returned. -/
def addBlockNoHandle (d : Drawing Img) (b : Block) : Except DxfErr (Block × Drawing Img) := do
  let d ← d.ensureAll .layer (b.layer :: b.entities.map Entity.layer)
  let d ← d.ensureAll .lineType (b.entities.map Entity.lineType)
  let (_, d) ← d.add .blockRecord (TName.named .blockRecord b.name)
  let (es, d) ← entityHandles b.entities d
  let b := { b with entities := es }
  return (b, { d with blocks := d.blocks ++ [b] })

/-- Models `add_block`, src/drawing.rs:393-396. -/
def addBlock (d : Drawing Img) (b : Block) : Except DxfErr (Block × Drawing Img) := do
  let (h, d) ← d.nextHandle
  d.addBlockNoHandle (b.setHandle h)

/-! ### Removing -/

/-- Models `remove_item`, src/drawing.rs:659-665. -/
def removeItem {α : Type} (l : List α) (i : Nat) : Option α × List α :=
  match l[i]? with
  | some x => (some x, l.take i ++ l.drop (i + 1))
  | none => (none, l)

/-- Models the `remove_*` of the tables, src/drawing.rs:245-383. -/
def remove (d : Drawing Img) (t : TName) (i : Nat) : Option t.Item × Drawing Img :=
  let (x, l) := removeItem (d.tables t) i
  (x, d.setTable t l)

/-- Models `remove_block`, src/drawing.rs:398-400. -/
def removeBlock (d : Drawing Img) (i : Nat) : Option Block × Drawing Img :=
  let (x, l) := removeItem d.blocks i
  (x, { d with blocks := l })

/-- Models `remove_entity`, src/drawing.rs:438-440. -/
def removeEntity (d : Drawing Img) (i : Nat) : Option Entity × Drawing Img :=
  let (x, l) := removeItem d.entities i
  (x, { d with entities := l })

/-- Models `remove_object`, src/drawing.rs:459-461. -/
def removeObject (d : Drawing Img) (i : Nat) : Option Object × Drawing Img :=
  let (x, l) := removeItem d.objects i
  (x, { d with objects := l })

/-- Models `clear`, src/drawing.rs:463-480. -/
def clear (d : Drawing Img) : Drawing Img where
  header := d.header.set 141 (1#64 : Handle)
  classes := []
  tables := fun _ => []
  blocks := []
  entities := []
  objects := []
  thumbnail := none

/-! ### Normalizing -/

/-- `a.name.cmp(&b.name)` is not `Greater`. -/
def nameLe (t : TName) (a b : t.Item) : Bool := !Str.lt (t.name b) (t.name a)

/-- The names in the header of UCSs that should exist, src/drawing.rs:1222-1228. -/
def ucsNames (d : Drawing Img) : List Str :=
  [d.header 147, d.header 148, d.header 152, d.header 160, d.header 161, d.header 165]

/-- Normalizes the entries of a table. -/
def normalizeTable (d : Drawing Img) (t : TName) : Drawing Img :=
  d.setTable t ((d.tables t).map t.normalize)

/-- Models `normalize`, src/drawing.rs:482-510, with src/drawing.rs:1149-1236.  The names of UCSs
come from a `HashSet`, in an order that is not specified: it is given as `ucsOrder`. -/
def normalize (ucsOrder : List Str) (d : Drawing Img) : Except DxfErr (Drawing Img) := do
  let d := { d with
    header := d.header.normalize
    blocks := d.blocks.map Block.normalize
    entities := d.entities.map Entity.normalize }
  let d ← d.ensureAll .appId [str!"ACAD", str!"ACADANNOTATIVE", str!"ACAD_NAV_VCDISPLAY",
    str!"ACAD_MLEADERVER"]
  let d ← d.ensureAll .blockRecord [str!"*MODEL_SPACE", str!"*PAPER_SPACE"]
  let d ← d.ensure .layer (d.header 22)
  let d := (((d.normalizeTable .layer).normalizeTable .style).normalizeTable .viewPort).normalizeTable
    .view
  let d ← d.ensureAll .dimStyle [str!"STANDARD", str!"ANNOTATIVE"]
  let d ← d.ensure .layer str!"0"
  let d ← d.ensureAll .lineType [str!"BYLAYER", str!"BYBLOCK", str!"CONTINUOUS"]
  let d ← d.ensureAll .style [str!"STANDARD", str!"ANNOTATIVE"]
  let d ← d.ensure .viewPort str!"*ACTIVE"
  let d ← d.ensureAll .ucs (ucsOrder.filter fun s => !s.isEmpty)
  return { d with tables := fun t => (d.tables t).mergeSort (nameLe t) }

/-- Models `Drawing::new`, src/drawing.rs:84-104.  `h` is `Header::default()`, which depends on the
time and on random numbers. -/
def new (h : Header) (ucsOrder : List Str) : Except DxfErr (Drawing Img) :=
  normalize ucsOrder {
    header := h
    classes := []
    tables := fun _ => []
    blocks := []
    entities := []
    objects := []
    thumbnail := none }

/-! ### Looking up -/

end Drawing

/-- Models `DrawingItem`, src/drawing_item.rs:6-20. -/
inductive DrawingItem where
  | table (t : TName) (x : t.Item)
  | block (b : Block)
  | entity (e : Entity)
  | object (o : Object)

/-- Models `DrawingItem::handle`, src/drawing_item.rs:22-39. -/
def DrawingItem.handle : DrawingItem → Handle
  | .table t x => t.handle x
  | .block b => b.handle
  | .entity e => e.handle
  | .object o => o.handle

namespace Drawing

variable {Img : Type}

/-- The entries of a table as items. -/
def tableItems (d : Drawing Img) (t : TName) : List DrawingItem := (d.tables t).map (.table t)

/-- All items, in the order in which `item_by_handle` visits them. -/
def items (d : Drawing Img) : List DrawingItem :=
  d.tableItems .appId ++ d.blocks.map .block ++ d.tableItems .blockRecord ++
  d.tableItems .dimStyle ++ d.entities.map .entity ++ d.tableItems .layer ++
  d.tableItems .lineType ++ d.objects.map .object ++ d.tableItems .style ++ d.tableItems .ucs ++
  d.tableItems .view ++ d.tableItems .viewPort

/-- Models `item_by_handle`, src/drawing.rs:512-575: twelve loops, one after the other. -/
def itemByHandle (d : Drawing Img) (h : Handle) : Option DrawingItem :=
  d.items.find? fun x => x.handle == h

end Drawing

/-- A place in a drawing, in the role of a `DrawingItemMut`. -/
inductive Slot where
  | table (t : TName) (i : Nat)
  | block (i : Nat)
  | entity (i : Nat)
  | object (i : Nat)

namespace Drawing

variable {Img : Type}

/-- One of the loops of `item_by_handle_mut` over a table. -/
def tableSlot (d : Drawing Img) (h : Handle) (t : TName) : Option Slot :=
  ((d.tables t).findIdx? fun x => t.handle x == h).map (.table t)

/-- Models `item_by_handle_mut`, src/drawing.rs:577-640. -/
def itemByHandleMut (d : Drawing Img) (h : Handle) : Option Slot :=
  d.tableSlot h .appId <|>
  (d.blocks.findIdx? fun b => b.handle == h).map .block <|>
  d.tableSlot h .blockRecord <|>
  d.tableSlot h .dimStyle <|>
  (d.entities.findIdx? fun e => e.handle == h).map .entity <|>
  d.tableSlot h .layer <|>
  d.tableSlot h .lineType <|>
  (d.objects.findIdx? fun o => o.handle == h).map .object <|>
  d.tableSlot h .style <|>
  d.tableSlot h .ucs <|>
  d.tableSlot h .view <|>
  d.tableSlot h .viewPort

/-- Models `assign_and_get_handle`, src/drawing.rs:641-649: what becomes of the handle of an item
that is made the owner of another one. -/
def assignHandle (d : Drawing Img) (h : Handle) : Except DxfErr (Handle × Drawing Img) :=
  if h = 0#64 then d.nextHandle else .ok (h, d)

end Drawing
end Dxf
