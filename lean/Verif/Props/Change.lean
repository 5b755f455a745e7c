import Verif.Lemmas.Change
import Verif.Props.Drawing

/-! Drawings that differ in one place have files that differ in one place (C72). -/

namespace Dxf

variable {Img : Type}

open Drawing

/-- C72: when entities in the middle of the list are exchanged, removed or put in, the pairs of just
these entities are exchanged; the pairs of an entity depend on nothing else but the version and
whether handles are written. -/
theorem C72_entities (v : Version) (wh : Bool) : ∃ f : Entity → List CodePair,
    ∀ (codec : ImageCodec Img) (d : Drawing Img) (a b : List Entity), d.version = v →
      d.writeHandles = wh → Localized (fun _ => True) (codePairs codec)
        (fun l => { d with entities := a ++ l ++ b }) fun l => .ok (l.flatMap f) := by
  refine ⟨Entity.pairs v wh, fun codec d a b hv hw => .of fun l ps _ h => ?_⟩
  obtain ⟨os, ts, h1, h2, -⟩ := codePairs_ok h
  refine ⟨d.header.pairs ++ d.classPairs ++ d.tablePairs ++ d.blockPairs ++
    (.newStr 0 str!"SECTION" :: .newStr 2 str!"ENTITIES" :: a.flatMap (Entity.pairs v wh)),
    b.flatMap (Entity.pairs v wh) ++ [.newStr 0 str!"ENDSEC"] ++ os ++ ts ++
      [.newStr 0 str!"EOF"], fun y _ => ?_⟩
  refine (codePairs_of (d := { d with entities := a ++ y ++ b }) h1 h2).trans (congrArg _ ?_)
  have he : Drawing.entityPairs { d with entities := a ++ y ++ b } = inSection str!"ENTITIES"
      ((a ++ y ++ b).flatMap (Entity.pairs v wh)) := by
    rw [← hv, ← hw]
    rfl
  rw [he, flatMap_mid]
  change d.header.pairs ++ d.classPairs ++ d.tablePairs ++ d.blockPairs ++ _ ++ os ++ ts ++ _ = _
  simp [inSection]

/-- C72 for blocks.  (There is no section if there are no blocks.) -/
theorem C72_blocks (v : Version) (wh : Bool) : ∃ f : Block → List CodePair,
    ∀ (codec : ImageCodec Img) (d : Drawing Img) (a b : List Block), d.version = v →
      d.writeHandles = wh → Localized (fun l => a ++ l ++ b ≠ []) (codePairs codec)
        (fun l => { d with blocks := a ++ l ++ b }) fun l => .ok (l.flatMap f) := by
  refine ⟨Block.pairs v wh, fun codec d a b hv hw => .of fun l ps _ h => ?_⟩
  obtain ⟨os, ts, h1, h2, -⟩ := codePairs_ok h
  refine ⟨d.header.pairs ++ d.classPairs ++ d.tablePairs ++
    (.newStr 0 str!"SECTION" :: .newStr 2 str!"BLOCKS" :: a.flatMap (Block.pairs v wh)),
    b.flatMap (Block.pairs v wh) ++ [.newStr 0 str!"ENDSEC"] ++ d.entityPairs ++ os ++ ts ++
      [.newStr 0 str!"EOF"], fun y hy => ?_⟩
  refine (codePairs_of (d := { d with blocks := a ++ y ++ b }) h1 h2).trans (congrArg _ ?_)
  have he : Drawing.blockPairs { d with blocks := a ++ y ++ b } = inSection str!"BLOCKS"
      ((a ++ y ++ b).flatMap (Block.pairs v wh)) := by
    rw [← hv, ← hw, blockPairs, if_neg (by simpa [List.isEmpty_iff] using hy)]
    rfl
  rw [he, flatMap_mid]
  change d.header.pairs ++ d.classPairs ++ d.tablePairs ++ _ ++ d.entityPairs ++ os ++ ts ++ _ = _
  simp [inSection]

/-- C72 for classes. -/
theorem C72_classes (v : Version) : ∃ f : Class → List CodePair,
    ∀ (codec : ImageCodec Img) (d : Drawing Img) (a b : List Class), d.version = v →
      Localized (fun l => a ++ l ++ b ≠ []) (codePairs codec)
        (fun l => { d with classes := a ++ l ++ b }) fun l => .ok (l.flatMap f) := by
  refine ⟨Class.pairs v, fun codec d a b hv => .of fun l ps _ h => ?_⟩
  obtain ⟨os, ts, h1, h2, -⟩ := codePairs_ok h
  refine ⟨d.header.pairs ++
    (.newStr 0 str!"SECTION" :: .newStr 2 str!"CLASSES" :: a.flatMap (Class.pairs v)),
    b.flatMap (Class.pairs v) ++ [.newStr 0 str!"ENDSEC"] ++ d.tablePairs ++ d.blockPairs ++
      d.entityPairs ++ os ++ ts ++ [.newStr 0 str!"EOF"], fun y hy => ?_⟩
  refine (codePairs_of (d := { d with classes := a ++ y ++ b }) h1 h2).trans (congrArg _ ?_)
  have he : Drawing.classPairs { d with classes := a ++ y ++ b } = inSection str!"CLASSES"
      ((a ++ y ++ b).flatMap (Class.pairs v)) := by
    rw [← hv, classPairs, if_neg (by simpa [List.isEmpty_iff] using hy)]
    rfl
  rw [he, flatMap_mid]
  change d.header.pairs ++ _ ++ d.tablePairs ++ d.blockPairs ++ d.entityPairs ++ os ++ ts ++ _ = _
  simp [inSection]

/-- C72 for the entries of a table. -/
theorem C72_table (t : TName) (v : Version) (wh : Bool) : ∃ f : t.Item → List CodePair,
    ∀ (codec : ImageCodec Img) (d : Drawing Img) (a b : List t.Item), d.version = v →
      d.writeHandles = wh → Localized (fun l => a ++ l ++ b ≠ []) (codePairs codec)
        (fun l => d.setTable t (a ++ l ++ b)) fun l => .ok (l.flatMap f) := by
  refine ⟨fun x => if (match t.kind.min with | some m => decide (m ≤ v) | none => true) then
    t.kind.itemPairs v wh x else [], fun codec d a b hv hw => .of fun l ps _ h => ?_⟩
  obtain ⟨os, ts, h1, h2, -⟩ := codePairs_ok h
  obtain ⟨l1, l2, hl⟩ := List.append_of_mem (show t ∈ TName.all by cases t <;> decide)
  have hnd : TName.all.Nodup := by decide
  rw [hl, List.nodup_append, List.nodup_cons] at hnd
  have n1 : ∀ t' ∈ l1, t' ≠ t := fun t' ht => hnd.2.2 t' ht t List.mem_cons_self
  have n2 : ∀ t' ∈ l2, t' ≠ t := fun t' ht e => hnd.2.1.1 (e ▸ ht)
  have other : ∀ y t', t' ≠ t → (d.setTable t (a ++ y ++ b)).oneTable t' = d.oneTable t' := by
    intro y t' ht
    have : (d.setTable t (a ++ y ++ b)).tables t' = d.tables t' := tables_set_ne _ _ (Ne.symm ht)
    unfold oneTable
    rw [this]
    rfl
  have others : ∀ y (ls : List TName), (∀ t' ∈ ls, t' ≠ t) →
      ls.flatMap (d.setTable t (a ++ y ++ b)).oneTable = ls.flatMap d.oneTable := by
    intro y ls hls
    induction ls with
    | nil => rfl
    | cons t' ls ih =>
      rw [List.flatMap_cons, List.flatMap_cons, other y t' (hls t' List.mem_cons_self),
        ih fun t' h => hls t' (List.mem_cons_of_mem _ h)]
  have this' : ∀ y, a ++ y ++ b ≠ [] → (d.setTable t (a ++ y ++ b)).oneTable t =
      if (match t.kind.min with | some m => decide (m ≤ v) | none => true) then
        [.newStr 0 str!"TABLE", .newStr 2 t.kind.typeString, .newStr 100 str!"AcDbSymbolTable",
          .newI16 70 0#16] ++ (a ++ y ++ b).flatMap (t.kind.itemPairs v wh) ++
          [.newStr 0 str!"ENDTAB"]
      else [] := by
    intro y hy
    have e : (d.setTable t (a ++ y ++ b)).tables t = a ++ y ++ b := tables_set _ _ _
    have hv' : (d.setTable t (a ++ y ++ b)).version = v := hv
    have hw' : (d.setTable t (a ++ y ++ b)).writeHandles = wh := hw
    rw [oneTable, e, hv', hw', TableKind.pairs,
      if_neg (show ¬ (a ++ y ++ b).isEmpty = true by simpa [List.isEmpty_iff] using hy)]
    rfl
  by_cases hg : (match t.kind.min with | some m => decide (m ≤ v) | none => true) = true
  · refine ⟨d.header.pairs ++ d.classPairs ++ (.newStr 0 str!"SECTION" :: .newStr 2 str!"TABLES" ::
      (l1.flatMap d.oneTable ++ [.newStr 0 str!"TABLE", .newStr 2 t.kind.typeString,
        .newStr 100 str!"AcDbSymbolTable", .newI16 70 0#16] ++
        a.flatMap (t.kind.itemPairs v wh))),
      b.flatMap (t.kind.itemPairs v wh) ++ [.newStr 0 str!"ENDTAB"] ++ l2.flatMap d.oneTable ++
        [.newStr 0 str!"ENDSEC"] ++ d.blockPairs ++ d.entityPairs ++ os ++ ts ++
        [.newStr 0 str!"EOF"], fun y hy => ?_⟩
    refine (codePairs_of (d := d.setTable t (a ++ y ++ b)) h1 h2).trans (congrArg _ ?_)
    have he : (d.setTable t (a ++ y ++ b)).tablePairs = inSection str!"TABLES"
        (l1.flatMap d.oneTable ++ ((d.setTable t (a ++ y ++ b)).oneTable t ++
          l2.flatMap d.oneTable)) := by
      rw [tablePairs, hl, List.flatMap_append, List.flatMap_cons, others y l1 n1, others y l2 n2]
    rw [he, this' y hy, if_pos hg, flatMap_mid]
    simp only [if_pos hg]
    change d.header.pairs ++ d.classPairs ++ _ ++ d.blockPairs ++ d.entityPairs ++ os ++ ts ++ _ = _
    simp [inSection]
  · refine ⟨d.header.pairs ++ d.classPairs ++ inSection str!"TABLES" (l1.flatMap d.oneTable ++
      l2.flatMap d.oneTable) ++ d.blockPairs ++ d.entityPairs ++ os ++ ts ++
        [.newStr 0 str!"EOF"], [], fun y hy => ?_⟩
    refine (codePairs_of (d := d.setTable t (a ++ y ++ b)) h1 h2).trans (congrArg _ ?_)
    have he : (d.setTable t (a ++ y ++ b)).tablePairs = inSection str!"TABLES"
        (l1.flatMap d.oneTable ++ ((d.setTable t (a ++ y ++ b)).oneTable t ++
          l2.flatMap d.oneTable)) := by
      rw [tablePairs, hl, List.flatMap_append, List.flatMap_cons, others y l1 n1, others y l2 n2]
    rw [he, this' y hy, if_neg hg]
    simp only [if_neg hg]
    change d.header.pairs ++ d.classPairs ++ _ ++ d.blockPairs ++ d.entityPairs ++ os ++ ts ++ _ = _
    simp

/-- C72 for objects.  Writing an object can fail; then saving fails. -/
theorem C72_objects (v : Version) : ∃ f : Object → Except DxfErr (List CodePair),
    ∀ (codec : ImageCodec Img) (d : Drawing Img) (a b : List Object), d.version = v →
      Localized (fun _ => True) (codePairs codec) (fun l => { d with objects := a ++ l ++ b })
        fun l => (l.mapM f).map List.flatten := by
  by_cases hg : Version.r13 ≤ v
  · refine ⟨Object.pairs v, fun codec d a b hv l ps _ h => ?_⟩
    obtain ⟨os, ts, h1, h2, -⟩ := codePairs_ok h
    have ho : ∀ y, Drawing.objectPairs { d with objects := a ++ y ++ b } =
        ((a ++ y ++ b).mapM (Object.pairs v)).map fun ps => inSection str!"OBJECTS" ps.flatten := by
      intro y
      have hv' : Drawing.version { d with objects := a ++ y ++ b } = v := hv
      rw [objectPairs, hv', if_pos hg]
      cases ((a ++ y ++ b).mapM (Object.pairs v)) <;> rfl
    rw [ho] at h1
    cases hm : (a ++ l ++ b).mapM (Object.pairs v) with
    | error =>
      rw [hm] at h1
      cases h1
    | ok r =>
      obtain ⟨r1, rb, hm, hb, -⟩ := mapM_append_ok hm
      obtain ⟨ra, rl, ha, -, -⟩ := mapM_append_ok hm
      refine ⟨d.header.pairs ++ d.classPairs ++ d.tablePairs ++ d.blockPairs ++ d.entityPairs ++
        (.newStr 0 str!"SECTION" :: .newStr 2 str!"OBJECTS" :: ra.flatten),
        rb.flatten ++ [.newStr 0 str!"ENDSEC"] ++ ts ++ [.newStr 0 str!"EOF"], fun y _ => ?_⟩
      beta_reduce
      cases hy : y.mapM (Object.pairs v) with
      | error e =>
        have : (a ++ y ++ b).mapM (Object.pairs v) = .error e := by
          rw [List.mapM_append, List.mapM_append, ha, hy]
          rfl
        rw [codePairs, ho, this]
        rfl
      | ok ry =>
        have : (a ++ y ++ b).mapM (Object.pairs v) = .ok (ra ++ ry ++ rb) := by
          rw [List.mapM_append, List.mapM_append, ha, hy, hb]
          rfl
        refine (codePairs_of (d := { d with objects := a ++ y ++ b }) (by rw [ho, this]; rfl)
          h2).trans (congrArg _ ?_)
        change d.header.pairs ++ d.classPairs ++ d.tablePairs ++ d.blockPairs ++ d.entityPairs ++
          _ ++ ts ++ _ = _
        simp [inSection]
  · refine ⟨fun _ => .ok [], fun codec d a b hv l ps _ h => ?_⟩
    obtain ⟨os, ts, h1, h2, -⟩ := codePairs_ok h
    have ho : ∀ y, Drawing.objectPairs { d with objects := a ++ y ++ b } = .ok [] := by
      intro y
      have hv' : Drawing.version { d with objects := a ++ y ++ b } = v := hv
      rw [objectPairs, hv', if_neg hg]
      rfl
    refine ⟨d.header.pairs ++ d.classPairs ++ d.tablePairs ++ d.blockPairs ++ d.entityPairs,
      ts ++ [.newStr 0 str!"EOF"], fun y _ => ?_⟩
    obtain ⟨hm, hz⟩ := mapM_nothing y
    beta_reduce
    rw [hm]
    refine (codePairs_of (d := { d with objects := a ++ y ++ b }) (ho y) h2).trans ?_
    change _ = Except.ok (_ ++ (y.map fun _ : Object => ([] : List CodePair)).flatten ++ _)
    rw [hz]
    refine congrArg _ ?_
    change d.header.pairs ++ d.classPairs ++ d.tablePairs ++ d.blockPairs ++ d.entityPairs ++
          _ ++ ts ++ _ = _
    simp

/-- C72 for the picture. -/
theorem C72_thumbnail (codec : ImageCodec Img) (v : Version) :
    ∃ f : Option Img → Except DxfErr (List CodePair), ∀ d : Drawing Img, d.version = v →
      Localized (fun _ => True) (codePairs codec) (fun x => { d with thumbnail := x }) f := by
  refine ⟨fun x => if .r2000 ≤ v then x.elim (.ok []) (Thumbnail.pairs codec) else .ok [],
    fun d hv l ps _ h => ?_⟩
  obtain ⟨os, ts, h1, h2, -⟩ := codePairs_ok h
  refine ⟨d.header.pairs ++ d.classPairs ++ d.tablePairs ++ d.blockPairs ++ d.entityPairs ++ os,
    [.newStr 0 str!"EOF"], fun y _ => ?_⟩
  beta_reduce
  have ho : Drawing.objectPairs { d with thumbnail := y } = .ok os := h1
  have ht : Drawing.thumbnailPairs codec { d with thumbnail := y } =
      if .r2000 ≤ v then y.elim (.ok []) (Thumbnail.pairs codec) else .ok [] := by
    have hv' : Drawing.version { d with thumbnail := y } = v := hv
    rw [thumbnailPairs, hv']
    cases y <;> rfl
  rw [codePairs, ho, ht]
  cases (if .r2000 ≤ v then y.elim (.ok []) (Thumbnail.pairs codec) else .ok [] :
    Except DxfErr (List CodePair)) <;> rfl

/-- C72 for the variables of the header. -/
theorem C72_header (v : Version) {i : Nat} (hi : i ∉ Header.special) :
    ∃ f : (tyAt Header.decls i).den → List CodePair, ∀ (codec : ImageCodec Img) (d : Drawing Img),
      d.version = v → Localized (fun _ => True) (codePairs codec)
        (fun x => { d with header := d.header.set i x }) fun x => .ok (f x) := by
  refine ⟨Header.part v i, fun codec d hv => .of fun l ps _ h => ?_⟩
  have h0 : (0 : Nat) ≠ i := fun h => hi (h ▸ by decide)
  have h140 : (140 : Nat) ≠ i := fun h => hi (h ▸ by decide)
  have hver : ∀ x, Drawing.version { d with header := d.header.set i x } = d.version := fun x => by
    change Rec.set d.header i x 0 = d.header 0
    exact Rec.set_ne _ x h0
  have hwh : ∀ x, Drawing.writeHandles { d with header := d.header.set i x } = d.writeHandles :=
    fun x => by
      have : Rec.set d.header i x 140 = d.header 140 := Rec.set_ne _ x h140
      rw [writeHandles, hver, writeHandles]
      exact congrArg (fun b : Bool => decide _ || b) this
  obtain ⟨os, ts, h1, h2, -⟩ := codePairs_ok h
  rw [objectPairs, hver] at h1
  rw [thumbnailPairs, hver] at h2
  obtain ⟨a, b, hp⟩ := header_part hi d.header
  refine ⟨a, b ++ d.classPairs ++ d.tablePairs ++ d.blockPairs ++ d.entityPairs ++ os ++ ts ++
    [.newStr 0 str!"EOF"], fun x _ => ?_⟩
  refine (codePairs_of (d := { d with header := d.header.set i x }) (os := os) (ts := ts)
    (by rw [objectPairs, hver]; exact h1) (by rw [thumbnailPairs, hver]; exact h2)).trans
      (congrArg _ ?_)
  have e1 : Drawing.classPairs { d with header := d.header.set i x } = d.classPairs := by
    rw [classPairs, hver]
    rfl
  have e2 : Drawing.tablePairs { d with header := d.header.set i x } = d.tablePairs := by
    rw [tablePairs, tablePairs]
    refine congrArg _ (congrArg (fun f => List.flatMap f TName.all) (funext fun t => ?_))
    rw [oneTable, hver, hwh]
    rfl
  have e3 : Drawing.blockPairs { d with header := d.header.set i x } = d.blockPairs := by
    rw [blockPairs, hver, hwh]
    rfl
  have e4 : Drawing.entityPairs { d with header := d.header.set i x } = d.entityPairs := by
    rw [entityPairs, hver, hwh]
    rfl
  rw [e1, e2, e3, e4, hp x, show d.header.version = v from hv]
  simp

/-- C72 for the bytes of text files. -/
theorem C72_text {α : Type} {P : α → Prop} {codec : ImageCodec Img} {g : α → Drawing Img}
    {f : α → Except DxfErr (List CodePair)} {v : Version} (hv : ∀ x, (g x).version = v)
    (h : Localized P (codePairs codec) g f) : Localized P (saveText codec) g
      fun x => (f x).map fun ps => ps.flatMap (writeAsciiPair (decide (v ≤ .r2004))) := by
  have := h.then [] (writeAsciiPair (decide (v ≤ .r2004)))
  intro x ps hx hs
  obtain ⟨a, b, h⟩ := this x ps hx (by rw [← hs, saveText, hv]; rfl)
  refine ⟨a, b, fun y hy => ?_⟩
  rw [← h y hy, saveText, hv]
  rfl

/-- C72 for the bytes of binary files. -/
theorem C72_binary {α : Type} {P : α → Prop} {codec : ImageCodec Img} {g : α → Drawing Img}
    {f : α → Except DxfErr (List CodePair)} {v : Version} (hv : ∀ x, (g x).version = v)
    (h : Localized P (codePairs codec) g f) : Localized P (saveBinary codec) g
      fun x => (f x).map fun ps => ps.flatMap (writeBinPair (decide (.r13 ≤ v))) := by
  have := h.then binPrelude (writeBinPair (decide (.r13 ≤ v)))
  intro x ps hx hs
  obtain ⟨a, b, h⟩ := this x ps hx (by rw [← hs, saveBinary, hv]; rfl)
  refine ⟨a, b, fun y hy => ?_⟩
  rw [← h y hy, saveBinary, hv]
  rfl

/-- C72: adding an entity whose layer, line type and styles are there changes the file in two places:
the next handle in the header, and the pairs of the new entity after those of the others. -/
theorem C72_add {codec : ImageCodec Img} {d d' : Drawing Img} {e e' : Entity} {ps : List CodePair}
    (hr : d.EntityRefs e) (h : d.addEntity e = .ok (e', d')) (hs : d.codePairs codec = .ok ps) :
    ∃ before x x' between behind,
      ps = before ++ [.newStr 9 str!"$HANDSEED", x] ++ between ++ behind ∧
      d'.codePairs codec = .ok (before ++ [.newStr 9 str!"$HANDSEED", x'] ++ between ++
        e'.pairs d.version d.writeHandles ++ behind) := by
  obtain ⟨n, rfl⟩ := addEntity_plain hr h
  obtain ⟨os, ts, h1, h2, rfl⟩ := codePairs_ok hs
  obtain ⟨a, b, hp⟩ := header_part (i := 141) (by decide) d.header
  obtain ⟨x, hx⟩ := header_seed d.header.version (d.header 141)
  obtain ⟨x', hx'⟩ := header_seed d.header.version n
  have hp0 := hp (d.header 141)
  have hself : Rec.set d.header 141 (d.header 141) = d.header := by
    funext i
    by_cases hi : i = 141
    · subst hi
      rw [Rec.set_self]
    · rw [Rec.set_ne _ _ hi]
  rw [hself, hx] at hp0
  have hp1 := hp n
  rw [hx'] at hp1
  refine ⟨a, x, x', b ++ d.classPairs ++ d.tablePairs ++ d.blockPairs ++ (.newStr 0 str!"SECTION" ::
    .newStr 2 str!"ENTITIES" :: d.entities.flatMap (Entity.pairs d.version d.writeHandles)),
    [.newStr 0 str!"ENDSEC"] ++ os ++ ts ++ [.newStr 0 str!"EOF"], ?_, ?_⟩
  · rw [hp0, entityPairs, inSection]
    simp
  · refine (codePairs_of (d := { d with
        header := d.header.set 141 n
        entities := d.entities ++ [e'] }) h1 h2).trans (congrArg _ ?_)
    have he : Drawing.entityPairs { d with
        header := d.header.set 141 n
        entities := d.entities ++ [e'] } = inSection str!"ENTITIES"
          ((d.entities ++ [e']).flatMap (Entity.pairs d.version d.writeHandles)) := rfl
    rw [he]
    change Header.pairs (d.header.set 141 n) ++ d.classPairs ++ d.tablePairs ++ d.blockPairs ++ _ ++ os ++
      ts ++ _ = _
    rw [hp1, inSection]
    simp

private def noImages : ImageCodec Unit :=
  ⟨fun _ => .error .imageError, fun _ => .error .imageError⟩

private def crossed (d : Drawing Unit) : Bool :=
  let e := EName.line.plain
  d.has .layer e.layer && d.has .lineType e.lineType && e.mlineStyle.isNone && e.dimStyle.isNone &&
    e.textStyle.isNone && (d.addEntity e).toOption.isSome &&
    (d.codePairs noImages).toOption.isSome && d.entities.length == 2

/-- A drawing with two lines to which a third one is added. -/
example : ∃ d : Drawing Unit, d.Reachable ∧ d.entities.length = 2 ∧ d.EntityRefs EName.line.plain ∧
    (∃ r, d.addEntity EName.line.plain = .ok r) ∧ ∃ ps, d.codePairs noImages = .ok ps := by
  obtain ⟨d, h⟩ := C13_total (Img := Unit) (h0 := Rec.dflt _) (fun _ _ => rfl) []
    [.clear, .addEntity EName.line.plain, .addEntity EName.line.plain] (by decide +kernel)
  have hc : ((Drawing.new (Rec.dflt _) [] >>= Op.runAll [.clear, .addEntity EName.line.plain,
      .addEntity EName.line.plain] : Except DxfErr (Drawing Unit)).toOption.map crossed) =
        some true := by decide +kernel
  rw [h] at hc
  have hc : crossed d = true := Option.some.inj hc
  simp only [crossed, Bool.and_eq_true, beq_iff_eq, Option.isNone_iff_eq_none] at hc
  obtain ⟨⟨⟨⟨⟨⟨⟨c1, c2⟩, c3⟩, c4⟩, c5⟩, c6⟩, c7⟩, c8⟩ := hc
  refine ⟨d, ⟨_, _, _, fun _ _ => rfl, fun _ _ => trivial, h⟩, c8, ⟨c1, c2, ?_, ?_, ?_⟩, ?_, ?_⟩
  · rw [c3]
    simp
  · rw [c4]
    simp
  · rw [c5]
    simp
  · cases ha : d.addEntity EName.line.plain with
    | error => simp [ha, Except.toOption] at c6
    | ok r => exact ⟨r, rfl⟩
  · cases ha : d.codePairs noImages with
    | error => simp [ha, Except.toOption] at c7
    | ok r => exact ⟨r, rfl⟩

end Dxf
