import Verif.Data.EntityNames

/-! Entities: src/entity.rs and src/entity_iter.rs. -/

namespace Dxf

namespace EName

/-- All fields of an entity of a kind: those of `EntityCommon`, then the specific ones. -/
abbrev decls (k : EName) : List Decl := commonDecls ++ k.kind.spec

/-- Models `EntityType::from_type_string`, build/entity_generator.rs:429-446, together with the
case `"DIMENSION"` of src/entity.rs:422. -/
def ofType (s : Str) : Option EName := all.find? fun k => k.kind.names.contains s

/-- Models `EntityType::is_supported_on_version`, build/entity_generator.rs:402-427. -/
def supported (k : EName) (v : Version) : Bool :=
  (match k.kind.min with
    | some m => decide (m ≤ v)
    | none => true) &&
  (match k.kind.max with
    | some m => decide (v ≤ m)
    | none => true)

end EName

/-- An entity as `Entity::read` returns it: without the entities that follow and are attached
to it by `collect_entities`.  `sub` tells the kinds of dimensions apart. -/
structure Flat where
  kind : EName
  sub : Nat
  entry : Entry kind.decls

/-- The specific part of an entity, as a record whose common fields have their default
values. -/
def Rec.bare {ds : List Decl} (r : Rec (commonDecls ++ ds)) : Rec (commonDecls ++ ds) :=
  fun i => if i < 18 then Rec.dflt _ i else r i

/-- The struct `MText`. -/
abbrev MTextRec : Type := Rec (commonDecls ++ Ent.mTextSpec)

/-- An element of `Insert::__attributes_and_handles` (spec/EntitiesSpec.xml, entity `Insert`):
an `Attribute` with its `m_text`, and a handle. -/
structure Att where
  fields : Rec (commonDecls ++ Ent.attributeSpec)
  mtext : MTextRec
  handle : Handle

/-- An element of `Polyline::__vertices_and_handles`. -/
structure Vert where
  fields : Rec (commonDecls ++ Ent.vertexSpec)
  handle : Handle

/-- The fields that hold other entities: `m_text` of `Attribute` and `AttributeDefinition`,
`__attributes_and_handles` of `Insert`, `__vertices_and_handles` of `Polyline`, and
`__seqend_handle` of `Insert` and `Polyline`.  Kinds without such a field have the default. -/
structure Extra where
  mtext : MTextRec
  atts : List Att
  verts : List Vert
  seqend : Handle

/-- The `Default` values. -/
def Extra.dflt : Extra := ⟨Rec.dflt _, [], [], 0#64⟩

/-- The struct `Entity`. -/
structure Entity extends Flat where
  extra : Extra

/-! ### Writing -/

/-- The pairs of an entity up to its specific fields: src/entity.rs:1302-1306 with
`EntityCommon::add_code_pairs`, build/entity_generator.rs:201-208, and the generated or custom
writers. -/
def EName.front (k : EName) (n : Nat) (v : Version) (wh : Bool) (e : Entry k.decls) :
    List CodePair :=
  .newStr 0 k.kind.typeString :: emitAll (commonHead k.kind.spec wh) v e.fields ++
  (if .r14 ≤ v then e.ext.flatMap ExtGroup.pairs else []) ++
  emitAll (commonCmds k.kind.spec wh ++ k.kind.cmds n) v e.fields

/-- Models `Entity::add_code_pairs`, src/entity.rs:1295-1313, given the pairs of
`add_post_code_pairs`. -/
def EName.pairs (k : EName) (n : Nat) (v : Version) (wh : Bool) (e : Entry k.decls)
    (post : List CodePair) : List CodePair :=
  if k.supported v then k.front n v wh e ++ post ++ e.xdata.flatMap fun x => x.pairs v
  else []

/-- Models `Entity::add_code_pairs_attribute_m_text`, src/entity.rs:1596-1615; `c` has the
common fields of the attribute. -/
def mTextPairs (v : Version) (wh : Bool) (c : Rec commonDecls) (m : MTextRec) : List CodePair :=
  EName.mText.pairs 0 v wh
    ⟨(((Rec.bare m).set 1 (c 0 : Handle)).set 2 (c 2 : Bool)).set 3 (c 3 : Str), [], []⟩ []

/-- The common fields of an entity. -/
def Rec.common {ds : List Decl} (r : Rec (commonDecls ++ ds)) : Rec commonDecls
  | 0 => r 0 | 1 => r 1 | 2 => r 2 | 3 => r 3 | 4 => r 4 | 5 => r 5 | 6 => r 6 | 7 => r 7
  | 8 => r 8 | 9 => r 9 | 10 => r 10 | 11 => r 11 | 12 => r 12 | 13 => r 13 | 14 => r 14
  | 15 => r 15 | 16 => r 16 | 17 => r 17
  | _ + 18 => ()

/-- The record of a child entity: `EntityCommon { handle, ..Default::default() }`
(src/entity.rs:1554-1559, 1577-1582). -/
def Rec.child {ds : List Decl} (r : Rec (commonDecls ++ ds)) (handle : Handle) :
    Rec (commonDecls ++ ds) :=
  (Rec.bare r).set 0 handle

/-- The pairs of an attribute of an insert, src/entity.rs:1553-1562. -/
def Att.pairs (v : Version) (wh : Bool) (a : Att) : List CodePair :=
  let r : Rec EName.attribute.decls := Rec.child a.fields a.handle
  EName.attribute.pairs 0 v wh ⟨r, [], []⟩ (mTextPairs v wh r.common a.mtext)

/-- Models the changes to the flags of a vertex, src/entity.rs:1569-1576: flag 32 is
`is_3d_polyline_vertex`, flag 64 is `is_3d_polygon_mesh`. -/
def Vert.adjust (polyFlags : I32) (r : Rec EName.vertex.decls) : Rec EName.vertex.decls :=
  let isZero (x : I32) : Bool := x == 0#32
  let f : I32 := setFlag (r 22 : I32) 32#32 (getFlag polyFlags 8#32)
  r.set 22
    (bif isZero (r 24) && isZero (r 25) && isZero (r 26) && isZero (r 27)
      then setFlag f 64#32 (getFlag polyFlags 16#32) else f : I32)

/-- The pairs of a vertex of a polyline, src/entity.rs:1567-1583. -/
def Vert.pairs (v : Version) (wh : Bool) (polyFlags : I32) (x : Vert) : List CodePair :=
  EName.vertex.pairs 0 v wh ⟨Rec.child (Vert.adjust polyFlags x.fields) x.handle, [], []⟩ []

/-- Models `Entity::add_code_pairs_seqend`, src/entity.rs:1616-1621. -/
def seqendPairs (wh : Bool) (handle : Handle) : List CodePair :=
  .newStr 0 str!"SEQEND" :: bif wh then [.newStr 5 (Handle.asString handle)] else []

/-- Models `Entity::add_post_code_pairs`, src/entity.rs:1537-1595. -/
def Entity.post (v : Version) (wh : Bool) : Entity → List CodePair
  | ⟨⟨.attribute, _, e⟩, x⟩ => mTextPairs v wh e.fields.common x.mtext
  | ⟨⟨.attributeDefinition, _, e⟩, x⟩ => mTextPairs v wh e.fields.common x.mtext
  | ⟨⟨.insert, _, _⟩, x⟩ =>
    x.atts.flatMap (Att.pairs v wh) ++ bif x.atts.isEmpty then [] else seqendPairs wh x.seqend
  | ⟨⟨.polyline, _, e⟩, x⟩ =>
    x.verts.flatMap (Vert.pairs v wh (e.fields 21 : I32)) ++ seqendPairs wh x.seqend
  | _ => []

/-- The number given to the specific write statements: for an insert, whether 66 is written
(spec/EntitiesSpec.xml, `Insert`), for a dimension its kind. -/
def Entity.num (e : Entity) : Nat :=
  match e.kind with
  | .insert => bif e.extra.atts.isEmpty then 0 else 1
  | _ => e.sub

/-- Models `Entity::add_code_pairs`, src/entity.rs:1295-1313. -/
def Entity.pairs (v : Version) (wh : Bool) (e : Entity) : List CodePair :=
  e.kind.pairs e.num v wh e.entry (e.post v wh)

/-! ### Reading -/

/-- What a reader does with one pair. -/
def EName.step (k : EName) (pair : CodePair) (st : Mode × Entry k.decls) :
    Rd (Mode × Entry k.decls) := do
  let e ← Entry.apply (k.kind.arms st.1) pair st.2
  return (k.kind.next st.1 pair, e)

/-- Models `Entity::post_parse`, src/entity.rs:680-776: the coordinates read into separate
lists become points. -/
def Rec.finish {ds : List Decl} (r : Rec ds) : Rec ds := fun i => Ty.finish (tyAt ds i) (r i)

/-- Models the loop that swallows an unsupported entity, src/entity.rs:650-661. -/
def swallowItem : Rd Unit :=
  Rd.withFuel fun fuel => itemLoop false (fun _ _ => (return () : Rd Unit)) fuel ()

/-- Models `Entity::read`, src/entity.rs:408-671.  A dimension none of whose pairs named its
kind is dropped and reading goes on. -/
def readEntity : Nat → Rd (Option Flat)
  | 0 => Rd.fail .outOfFuel
  | fuel + 1 => do
    let pair ← Rd.next
    if pair.code = 0 then do
      let s ← Rd.lift pair.assertString
      if s = str!"ENDSEC" ∨ s = str!"ENDBLK" then do
        Rd.putBack pair
        return none
      else
        match EName.ofType s with
        | none => do
          swallowItem
          readEntity fuel
        | some k => do
          let st ← Rd.withFuel fun fuel =>
            itemLoop k.kind.eof k.step fuel (Mode.start, Entry.dflt k.decls)
          match k.kind.sub st.1 with
          | some n => return some ⟨k, n, { st.2 with fields := st.2.fields.finish }⟩
          | none => readEntity fuel
    else Rd.fail (.unexpectedCodePair pair)

/-- Models `EntityIter::next`, src/entity_iter.rs:15-20: an error ends the iteration.  A panic
of the reader (and the impossible exhaustion of fuel) is not an `Err`. -/
def nextEntity : Rd (Option Flat) := fun s =>
  match Rd.withFuel readEntity s with
  | (.ok x, s') => (.ok x, s')
  | (.error .panic, s') => (.error .panic, s')
  | (.error .outOfFuel, s') => (.error .outOfFuel, s')
  | (.error _, s') => (.ok none, s')

/-- `next` of `PutBack<EntityIter>` (itertools): the entity that was put back, if any. -/
def nextSlot : Option Flat → Rd (Option Flat)
  | some x => return some x
  | none => nextEntity

/-- The handle that marks children without a handle of their own, src/drawing.rs:36. -/
def autoReplaceHandle : Handle := 0xFFFFFFFFFFFFFFFF#64

/-- Models `swallow_seqend`, src/entity_iter.rs:33-49; the result is the entity put back. -/
def swallowSeqend (slot : Option Flat) : Rd (Option Flat) := do
  match ← nextSlot slot with
  | some x => if x.kind = .seqend then return none else return some x
  | none => return none

/-- Models `mtext`, src/entity_iter.rs:51-68. -/
def takeMText (slot : Option Flat) : Rd (Option MTextRec × Option Flat) := do
  match ← nextSlot slot with
  | some ⟨.mText, _, e⟩ => return (some (Rec.bare e.fields), none)
  | some x => return (none, some x)
  | none => return (none, none)

/-- Models the loop that gathers attributes, src/entity_iter.rs:110-125. -/
def gatherAtts : Nat → Option Flat → Rd (List Att × Option Flat)
  | 0, _ => Rd.fail .outOfFuel
  | fuel + 1, slot => do
    match ← nextSlot slot with
    | some ⟨.attribute, _, e⟩ => do
      let (as, s) ← gatherAtts fuel none
      return (⟨Rec.bare e.fields, Rec.dflt _, autoReplaceHandle⟩ :: as, s)
    | some x => return ([], some x)
    | none => return ([], none)

/-- Models the loop that gathers vertices, src/entity_iter.rs:140-155. -/
def gatherVerts : Nat → Option Flat → Rd (List Vert × Option Flat)
  | 0, _ => Rd.fail .outOfFuel
  | fuel + 1, slot => do
    match ← nextSlot slot with
    | some ⟨.vertex, _, e⟩ => do
      let (vs, s) ← gatherVerts fuel none
      return (⟨Rec.bare e.fields, autoReplaceHandle⟩ :: vs, s)
    | some x => return ([], some x)
    | none => return ([], none)

/-- An attribute together with the text that follows it. -/
def withMText (x : Flat) : Option MTextRec → Entity
  | some m => ⟨x, { Extra.dflt with mtext := m }⟩
  | none => ⟨x, Extra.dflt⟩

/-- Whether children are to be gathered for an entity: an `Insert` with `__has_attributes`
(src/entity_iter.rs:105-108). -/
def Flat.wantsAtts : Flat → Bool
  | ⟨.insert, _, e⟩ => (e.fields 18 : Bool)
  | _ => false

/-- Models the loop of `collect_entities`, src/entity_iter.rs:70-168. -/
def collectEntities : Nat → Option Flat → Rd (List Entity)
  | 0, _ => Rd.fail .outOfFuel
  | fuel + 1, slot => do
    match ← nextSlot slot with
    | none => return []
    | some x =>
      if x.kind = .attribute ∨ x.kind = .attributeDefinition then do
        let (m, s) ← takeMText none
        let rest ← collectEntities fuel s
        return withMText x m :: rest
      else if x.wantsAtts then do
        let (as, s) ← Rd.withFuel fun f => gatherAtts f none
        let s' ← swallowSeqend s
        let rest ← collectEntities fuel s'
        return ⟨x, { Extra.dflt with atts := as }⟩ :: rest
      else if x.kind = .polyline then do
        let (vs, s) ← Rd.withFuel fun f => gatherVerts f none
        let s' ← swallowSeqend s
        let rest ← collectEntities fuel s'
        return ⟨x, { Extra.dflt with verts := vs }⟩ :: rest
      else do
        let rest ← collectEntities fuel none
        return ⟨x, Extra.dflt⟩ :: rest

/-- Models `EntityIter::read_entities_into_vec`, src/entity_iter.rs:24-26.  `collect_entities`
appends to `entities`; here the new entities are returned. -/
def readEntities : Rd (List Entity) := Rd.withFuel fun fuel => collectEntities fuel none

end Dxf
