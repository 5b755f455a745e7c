import Verif.Lemmas.Complete

/-! Loading a saved drawing reads its content and assembles it. -/

namespace Dxf

theorem FWrite.fits_simple {t : Ty} (ht : t = .handle ∨ t = .str) (w : FWrite t) (a b : t.den) :
    w.Fits a b := by
  cases w with
  | one code c =>
    cases c <;> first | trivial | (rcases ht with h | h <;> cases h)
  | many => rcases ht with h | h <;> cases h
  | axes => rcases ht with h | h <;> cases h
  | points => rcases ht with h | h <;> cases h
  | lw => rcases ht with h | h <;> cases h

/-- Texts and handles are always representable. -/
theorem representable_simple {ds : List Decl} {i : Nat} (ht : tyAt ds i = .handle ∨ tyAt ds i = .str)
    (cmds : List (GCmd ds)) (v : Version) (r : Rec ds) : Representable cmds v r i :=
  fun _ _ _ w _ => FWrite.fits_simple ht w _ _

theorem Header.known_mem {n : Nat} {x : HCmd Header.decls} (h : Header.cmds[n]? = some x)
    (hv : (findVar Header.vars x.name).isSome = true) : x.g ∈ Header.known :=
  List.mem_map.mpr ⟨x, List.mem_filter.mpr ⟨List.mem_of_getElem? h, hv⟩, rfl⟩

theorem Header.written_next (v : Version) (r : Header) : Written Header.known v r 141 :=
  ⟨_, Header.known_mem (n := 144) rfl (by decide +kernel), rfl, rfl⟩

theorem Header.written_version (v : Version) (r : Header) : Written Header.known v r 0 :=
  ⟨_, Header.known_mem (n := 0) rfl (by decide +kernel), rfl, rfl⟩

theorem FWrite.fits_version {t : Ty} (w : FWrite t) (ht : t = .version) (a b : t.den)
    (hb : ¬ HEq b Version.r11) : w.Fits a b := by
  cases w with
  | one code c =>
    cases c <;> first | trivial | cases ht
    exact fun h => hb (heq_of_eq h)
  | many => cases ht
  | axes => cases ht
  | points => cases ht
  | lw => cases ht

theorem Header.representable_version (v : Version) (r : Header) (hr : r.version ≠ .r11) :
    Representable Header.known v r 0 :=
  fun _ _ _ w _ => FWrite.fits_version w rfl _ _ fun h => hr (eq_of_heq h)

theorem Header.pairs_eq (r : Header) : r.pairs = Drawing.inSection str!"HEADER" r.body := rfl

namespace Drawing

variable {Img : Type} {codec : ImageCodec Img}

/-! ### Tables -/

theorem tableOf_kind (t : TName) : tableOf t.kind.typeString = some t := by
  cases t <;> rfl

theorem kind_others (t : TName) (ht : t ≠ .layer) : t.kind ∈ Tables.others := by
  cases t <;> simp [TName.kind, Tables.others] at *

theorem restored_other (t : TName) (ht : t ≠ .layer) (v : Version) (wh : Bool) (a b : t.Item)
    (h : Dxf.Restored t.kind v wh [] a b) : t.Restored v wh a b := by
  cases t <;> first | exact h | exact absurd rfl ht

/-- C20 for all kinds of tables. -/
theorem table_written (d : Drawing Img) (hf : d.Faithful codec) (t : TName)
    (hne : d.tables t ≠ []) :
    ∃ tail, t.kind.pairs d.version d.writeHandles (d.tables t) =
        .newStr 0 str!"TABLE" :: .newStr 2 t.kind.typeString :: tail ++ [.newStr 0 str!"ENDTAB"] ∧
      ∀ rest : Stream, ∃ items', List.Forall₂ (t.Restored d.version d.writeHandles) (d.tables t)
          items' ∧
        Rd.withFuel t.kind.read (toStream tail ++ some (.ok (.newStr 0 str!"ENDTAB")) :: rest) =
          (.ok items', some (.ok (.newStr 0 str!"ENDTAB")) :: rest) := by
  by_cases ht : t = .layer
  · subst ht
    exact C20_layers d.version d.writeHandles _ hne (hf.tables .layer) hf.colors
  · obtain ⟨tail, h1, h2⟩ := C20_tables t.kind (kind_others t ht) d.version d.writeHandles _ hne
      (hf.tables t)
    refine ⟨tail, h1, fun rest => ?_⟩
    obtain ⟨items, h3, h4⟩ := h2 rest
    exact ⟨items, h3.imp fun a b => restored_other t ht _ _ a b, h4⟩

theorem readTable_written {t : TName} {items : List t.Item} {tail : List CodePair} {rest : Stream}
    (h : Rd.withFuel t.kind.read (toStream tail ++ some (.ok (.newStr 0 str!"ENDTAB")) :: rest) =
      (.ok items, some (.ok (.newStr 0 str!"ENDTAB")) :: rest)) {d d' : Drawing Img}
    (hd : items.foldlM (addRead t) d = .ok d') :
    readTable d (some (.ok (.newStr 2 t.kind.typeString)) ::
      (toStream tail ++ some (.ok (.newStr 0 str!"ENDTAB")) :: rest)) = (.ok d', rest) := by
  unfold readTable
  refine (Rd.bind_ok (Rd.next_cons (by simp [CodePair.newStr]) _)).trans ?_
  rw [if_neg (by simp [CodePair.newStr])]
  refine (Rd.bind_ok (m := Rd.lift (.ok t.kind.typeString)) (a := t.kind.typeString)
    (s' := toStream tail ++ some (.ok (.newStr 0 str!"ENDTAB")) :: rest) rfl).trans ?_
  rw [tableOf_kind t]
  refine (Rd.bind_ok h).trans ?_
  rw [hd]
  refine (Rd.bind_ok (m := Rd.lift (.ok d')) (a := d')
    (s' := some (.ok (.newStr 0 str!"ENDTAB")) :: rest) rfl).trans ?_
  exact (Rd.bind_ok (expect_run str!"ENDTAB" [] (by simp) (.newStr 0 str!"ENDTAB") rfl rfl rest))

theorem oneTable_eq (d : Drawing Img) (t : TName) : d.oneTable t =
    if t = .blockRecord ∧ ¬ .r13 ≤ d.version then []
    else t.kind.pairs d.version d.writeHandles (d.tables t) := by
  unfold oneTable
  cases t
  case blockRecord =>
    by_cases hv : Version.r13 ≤ d.version
    · exact (if_pos (by simpa [TName.kind, Tables.blockRecord] using hv)).trans
        (if_neg (by simp [hv])).symm
    · exact (if_neg (by simpa [TName.kind, Tables.blockRecord] using hv)).trans
        (if_pos (by simp [hv])).symm
  all_goals exact (if_pos rfl).trans (if_neg (by simp)).symm

theorem foldlM_congr {α β : Type} (l : List α) (f g : β → α → Except DxfErr β)
    (h : ∀ x ∈ l, ∀ b, f b x = g b x) (b : β) : l.foldlM f b = l.foldlM g b := by
  induction l generalizing b with
  | nil => rfl
  | cons x l ih =>
    rw [List.foldlM_cons, List.foldlM_cons, h x List.mem_cons_self]
    congr 1
    funext b'
    exact ih (fun y hy => h y (List.mem_cons_of_mem _ hy)) b'

theorem tables_written (d : Drawing Img) (hf : d.Faithful codec) (ts : List TName) (hn : ts.Nodup)
    (rest : Stream) : ∃ items : (t : TName) → List t.Item,
      (∀ t ∈ ts, List.Forall₂ (t.Restored d.version d.writeHandles) (d.filed t) (items t)) ∧
      ∀ d1 d2 : Drawing Img, ts.foldlM (fun d t => (items t).foldlM (addRead t) d) d1 = .ok d2 →
        ItemsTo str!"TABLE" readTable d1 (toStream (ts.flatMap d.oneTable) ++ rest) d2 rest := by
  induction ts with
  | nil =>
    refine ⟨fun _ => [], by simp, fun d1 d2 h => ?_⟩
    cases h
    exact .refl
  | cons t ts ih =>
    obtain ⟨items, h1, h2⟩ := ih (List.nodup_cons.mp hn).2
    have hnt := (List.nodup_cons.mp hn).1
    -- the entries of this table
    have key : ∃ its : List t.Item,
        List.Forall₂ (t.Restored d.version d.writeHandles) (d.filed t) its ∧
        ∀ d1 d2 : Drawing Img, its.foldlM (addRead t) d1 = .ok d2 → ItemsTo str!"TABLE" readTable d1
          (toStream (d.oneTable t) ++ (toStream (ts.flatMap d.oneTable) ++ rest)) d2
          (toStream (ts.flatMap d.oneTable) ++ rest) := by
      rw [oneTable_eq]
      unfold filed
      by_cases hc : t = .blockRecord ∧ ¬ .r13 ≤ d.version
      swap
      · rw [if_neg hc, if_neg hc]
        by_cases hne : d.tables t = []
        · rw [hne]
          refine ⟨[], .nil, fun d1 d2 h => ?_⟩
          cases h
          exact .refl
        · obtain ⟨tail, e, h3⟩ := table_written d hf t hne
          obtain ⟨its, h4, h5⟩ := h3 (toStream (ts.flatMap d.oneTable) ++ rest)
          refine ⟨its, h4, fun d1 d2 h => ?_⟩
          rw [e]
          have := ItemsTo.one (type := str!"TABLE") (by decide) (readTable_written h5 h)
            (by simp; omega)
          simpa [toStream] using this
      · rw [if_pos hc, if_pos hc]
        refine ⟨[], .nil, fun d1 d2 h => ?_⟩
        cases h
        exact .refl
    obtain ⟨its, k1, k2⟩ := key
    refine ⟨fun t' => if h : t = t' then h ▸ its else items t', ?_, ?_⟩
    · intro t' ht'
      rcases List.mem_cons.mp ht' with rfl | ht'
      · simpa using k1
      · have hne : t ≠ t' := fun h => hnt (h ▸ ht')
        simpa [hne] using h1 t' ht'
    · intro d1 d2 h
      rw [List.foldlM_cons] at h
      obtain ⟨d3, e1, e2⟩ := bind_ok h
      simp only [dite_true] at e1
      have e3 : ts.foldlM (fun d t => (items t).foldlM (addRead t) d) d3 = .ok d2 := by
        rw [← e2]
        refine foldlM_congr ts _ _ (fun t' ht' d => ?_) d3
        have hne : t ≠ t' := fun h => hnt (h ▸ ht')
        simp [hne]
      rw [List.flatMap_cons, toStream_append, List.append_assoc]
      exact (k2 _ _ e1).trans (h2 _ _ e3)

/-! ### Blocks -/

theorem blocks_written (d : Drawing Img) (hf : d.Faithful codec) (bs : List Block)
    (hb : ∀ b ∈ bs, b ∈ d.blocks) (rest : Stream) (hr : StartsZero rest) : ∃ bs',
      List.Forall₂ (Block.Restored d.version d.writeHandles) bs bs' ∧
      StartsZero (toStream (bs.flatMap (Block.pairs d.version d.writeHandles)) ++ rest) ∧
      ∀ d1 d2 : Drawing Img, bs'.foldlM addReadBlock d1 = .ok d2 →
        ItemsTo str!"BLOCK" readBlock d1
          (toStream (bs.flatMap (Block.pairs d.version d.writeHandles)) ++ rest) d2 rest := by
  induction bs with
  | nil =>
    refine ⟨[], .nil, hr, fun d1 d2 h => ?_⟩
    cases h
    exact .refl
  | cons b bs ih =>
    obtain ⟨bs', h1, h2, h3⟩ := ih fun b hm => hb b (List.mem_cons_of_mem _ hm)
    have hm := hb b List.mem_cons_self
    have he : ∀ e ∈ b.entities, _ := fun e he => hf.entities e
      (List.mem_append_right _ (List.mem_flatMap.mpr ⟨b, hm, he⟩))
    obtain ⟨b', tail, k1, k2, k3⟩ := b.read_written d.version d.writeHandles
      (fun e h => (he e h).1) (fun e h => (he e h).2.1) (fun e h => (he e h).2.2.1)
      (fun e h => (he e h).2.2.2) (hf.blocks b hm).1 (hf.blocks b hm).2 _ h2
    rw [List.flatMap_cons, k2, toStream_append, List.append_assoc, toStream_cons, List.cons_append]
    refine ⟨b' :: bs', .cons k1 h1, ⟨_, _, rfl, rfl⟩, fun d1 d2 h => ?_⟩
    rw [List.foldlM_cons] at h
    obtain ⟨d3, e1, e2⟩ := bind_ok h
    refine (ItemsTo.one (by decide) ?_ (by simp)).trans (h3 _ _ e2)
    unfold readBlock
    refine (Rd.bind_ok k3).trans ?_
    rw [e1]
    rfl

/-! ### The file -/

/-- What `new` needs. -/
theorem new_ok {h0 : Header} (hf : Header.Fresh h0) (order : List Str)
    (h : 41 + 2 * order.length < 2 ^ 64) : ∃ d : Drawing Img, new h0 order = .ok d := by
  have h141 : h0 141 = (1#64 : Handle) := hf 141 (by decide)
  obtain ⟨d0, h1, -⟩ := step_ok (op := .normalize order) (d := ({
    header := h0
    classes := []
    tables := fun _ => []
    blocks := []
    entities := []
    objects := []
    thumbnail := none } : Drawing Img)) (by
      change BitVec.toNat (h0 141 : Handle) + (40 + 2 * order.length) < _
      rw [h141]
      simp
      omega)
  exact ⟨d0, h1⟩

theorem load_written {h0 : Header} (hfr : Header.Fresh h0) (order : List Str)
    (ho : 41 + 2 * order.length < 2 ^ 64) (d : Drawing Img) (hf : d.Faithful codec) :
    ∃ ps p, d.codePairs codec = .ok ps ∧ d.Restored h0 p ∧
      ∀ d', p.assemble = .ok d' → load codec h0 order (toStream ps) = (.ok d', []) ∧
        (d.version ≤ .r2004 → loadUntil codec h0 order (toStream ps) = (.ok false, [])) := by
  obtain ⟨d0, hnew⟩ := new_ok (Img := Img) hfr order ho
  -- the thumbnail
  obtain ⟨tps, img, ht, himg, hthumb⟩ : ∃ tps img, d.thumbnailPairs codec = .ok tps ∧
      img = (if .r2000 ≤ d.version then d.thumbnail else none) ∧
      ∀ d1 : Drawing Img, d1.thumbnail = none → SectionsTo (d.version ≤ .r2004) codec h0 d1
        (toStream (tps ++ [.newStr 0 str!"EOF"])) { d1 with thumbnail := img }
        (toStream [.newStr 0 str!"EOF"]) := by
    have hnone : ∀ d1 : Drawing Img, d1.thumbnail = none →
        SectionsTo (d.version ≤ .r2004) codec h0 d1 (toStream ([] ++ [.newStr 0 str!"EOF"]))
          { d1 with thumbnail := none } (toStream [.newStr 0 str!"EOF"]) := by
      intro d1 h1
      have : ({ d1 with thumbnail := none } : Drawing Img) = d1 := by rw [← h1]
      rw [this]
      exact .refl
    unfold thumbnailPairs
    by_cases hv : Version.r2000 ≤ d.version
    · simp only [if_pos hv]
      cases hth : d.thumbnail with
      | none => exact ⟨[], none, rfl, rfl, hnone⟩
      | some img =>
        obtain ⟨data, h1, h2, h3⟩ := hf.thumbnail hv img hth
        obtain ⟨tps, hp⟩ : ∃ tps, Thumbnail.pairs codec img = .ok tps := by
          unfold Thumbnail.pairs
          rw [h1]
          have := h2.long
          exact ⟨_, if_neg (by omega)⟩
        obtain ⟨body, rfl, hr⟩ := C34_roundtrip h1 h2 hp [.newStr 0 str!"EOF"]
        refine ⟨_, some img, hp, rfl, fun d1 _ => ?_⟩
        rw [toStream_append]
        refine SectionsTo.one (name := str!"THUMBNAILIMAGE") (body := body) ?_
        change (do
          let img ← Thumbnail.read codec
          return { d1 with thumbnail := img } : Rd (Drawing Img)) _ = _
        rw [toStream_append, toStream_cons, h3] at hr
        exact Rd.bind_ok hr
    · simp only [if_neg hv]
      exact ⟨[], none, rfl, rfl, hnone⟩
  -- the objects
  obtain ⟨ops, os, hops, hos, hobj⟩ : ∃ ops os, d.objectPairs = .ok ops ∧
      List.Forall₂ (Object.Restored d.version)
        (if .r13 ≤ d.version then d.objects.filter fun o => o.kind.supported d.version else [])
        os ∧
      ∀ d1 d2 : Drawing Img, os.foldlM addReadObject d1 = .ok d2 →
        SectionsTo (d.version ≤ .r2004) codec h0 d1 (toStream ops ++ toStream (tps ++ [.newStr 0 str!"EOF"])) d2
          (toStream (tps ++ [.newStr 0 str!"EOF"])) := by
    unfold objectPairs
    by_cases hv : Version.r13 ≤ d.version
    · simp only [if_pos hv]
      obtain ⟨pairs, os, h1, h2, h3⟩ := C22_all_partial d.objects d.version
        (fun o h => (hf.objects hv o h).1) (fun o h => (hf.objects hv o h).2)
        (toStream (tps ++ [.newStr 0 str!"EOF"]))
      replace h1 : d.objects.mapM (Object.pairs d.version) = .ok pairs := h1
      rw [h1]
      refine ⟨_, os, rfl, h2, fun d1 d2 h => SectionsTo.one ?_⟩
      change readObjectSection d1 _ = _
      unfold readObjectSection
      rw [toStream_append, List.append_assoc] at h3
      refine (Rd.bind_ok h3).trans ?_
      rw [h]
      rfl
    · simp only [if_neg hv]
      refine ⟨[], [], rfl, .nil, fun d1 d2 h => ?_⟩
      cases h
      exact .refl
  -- the entities
  obtain ⟨es, hes, hent⟩ := C26_partial d.entities d.version d.writeHandles
    (fun e h => (hf.entities e (List.mem_append_left _ h)).1)
    (fun e h => (hf.entities e (List.mem_append_left _ h)).2.1)
    (fun e h => (hf.entities e (List.mem_append_left _ h)).2.2.1)
    (fun e h => (hf.entities e (List.mem_append_left _ h)).2.2.2) str!"ENDSEC" (.inl rfl)
    (toStream ops ++ toStream (tps ++ [.newStr 0 str!"EOF"]))
  rw [toStream_append, List.append_assoc] at hent
  have hents : ∀ d1 d2 : Drawing Img, es.foldlM addReadEntity d1 = .ok d2 →
      SectionsTo (d.version ≤ .r2004) codec h0 d1 (toStream d.entityPairs ++
        (toStream ops ++ toStream (tps ++ [.newStr 0 str!"EOF"]))) d2
        (toStream ops ++ toStream (tps ++ [.newStr 0 str!"EOF"])) := by
    intro d1 d2 h
    refine SectionsTo.one ?_
    change readEntitySection d1 _ = _
    unfold readEntitySection
    refine (Rd.bind_ok hent).trans ?_
    rw [h]
    rfl
  -- the blocks
  obtain ⟨bs, hbs, hblk⟩ : ∃ bs, List.Forall₂ (Block.Restored d.version d.writeHandles) d.blocks
        bs ∧
      ∀ d1 d2 : Drawing Img, bs.foldlM addReadBlock d1 = .ok d2 →
        SectionsTo (d.version ≤ .r2004) codec h0 d1 (toStream d.blockPairs ++ (toStream d.entityPairs ++
          (toStream ops ++ toStream (tps ++ [.newStr 0 str!"EOF"])))) d2
          (toStream d.entityPairs ++ (toStream ops ++
            toStream (tps ++ [.newStr 0 str!"EOF"]))) := by
    unfold blockPairs
    by_cases hb : d.blocks = []
    · rw [hb]
      refine ⟨[], .nil, fun d1 d2 h => ?_⟩
      cases h
      exact .refl
    · rw [if_neg (by simpa using hb)]
      obtain ⟨bs, h1, -, h3⟩ := blocks_written d hf d.blocks (fun _ h => h)
        (some (.ok (.newStr 0 str!"ENDSEC")) :: (toStream d.entityPairs ++ (toStream ops ++
            toStream (tps ++ [.newStr 0 str!"EOF"])))) ⟨_, _, rfl, rfl⟩
      exact ⟨bs, h1, fun d1 d2 h => SectionsTo.one (h3 d1 d2 h).done⟩
  -- the tables
  obtain ⟨items, hit, htab⟩ := tables_written d hf TName.all (by decide)
    (some (.ok (.newStr 0 str!"ENDSEC")) :: (toStream d.blockPairs ++ (toStream d.entityPairs ++
      (toStream ops ++ toStream (tps ++ [.newStr 0 str!"EOF"])))))
  -- the header
  obtain ⟨r, hr, hr'⟩ := C19_header h0 hfr d.header hf.dates
    (toStream d.classPairs ++ (toStream d.tablePairs ++ (toStream d.blockPairs ++
      (toStream d.entityPairs ++ (toStream ops ++ toStream (tps ++ [.newStr 0 str!"EOF"]))))))
  have hver : r.version = d.version :=
    (hr' 0 (Header.representable_version _ _ hf.version)).1 (Header.written_version _ _)
  let p : Drawing Img :=
    { header := r
      classes := d.classes.map (Class.visible d.version)
      tables := items
      blocks := bs
      entities := es
      objects := os
      thumbnail := img }
  refine ⟨d.header.pairs ++ d.classPairs ++ d.tablePairs ++ d.blockPairs ++ d.entityPairs ++ ops ++
    tps ++ [.newStr 0 str!"EOF"], p, ?_, ⟨?_, rfl, fun t => hit t (TName.mem_all t), hbs, hes, hos, himg⟩, ?_⟩
  · unfold codePairs
    rw [hops, ht]
    rfl
  · intro i hi
    obtain ⟨h1, h2⟩ := hr' i hi
    by_cases hw : Written Header.known d.version d.header i
    · rw [if_pos hw]
      exact h1 hw
    · rw [if_neg hw]
      exact h2 hw
  · intro d' ha
    unfold assemble at ha
    obtain ⟨d1, a1, ha⟩ := bind_ok ha
    obtain ⟨d2, a2, ha⟩ := bind_ok ha
    obtain ⟨d3, a3, ha⟩ := bind_ok ha
    obtain ⟨d4, a4, ha⟩ := bind_ok ha
    cases ha
    refine load_done hnew ?_
    have e : toStream (d.header.pairs ++ d.classPairs ++ d.tablePairs ++ d.blockPairs ++
        d.entityPairs ++ ops ++ tps ++ [.newStr 0 str!"EOF"]) = toStream d.header.pairs ++
        (toStream d.classPairs ++ (toStream d.tablePairs ++ (toStream d.blockPairs ++
        (toStream d.entityPairs ++ (toStream ops ++ toStream (tps ++ [.newStr 0 str!"EOF"])))))) := by
      simp only [toStream_append, List.append_assoc]
    rw [e]
    -- header
    have s1 : SectionsTo (d.version ≤ .r2004) codec h0 d0.clear (toStream d.header.pairs ++ (toStream d.classPairs ++
        (toStream d.tablePairs ++ (toStream d.blockPairs ++ (toStream d.entityPairs ++
        (toStream ops ++ toStream (tps ++ [.newStr 0 str!"EOF"])))))))
        { d0.clear with header := r } (toStream d.classPairs ++
        (toStream d.tablePairs ++ (toStream d.blockPairs ++ (toStream d.entityPairs ++
        (toStream ops ++ toStream (tps ++ [.newStr 0 str!"EOF"])))))) := by
      rw [Header.pairs_eq]
      refine SectionsTo.ofUntil ?_ fun hq => ?_
      · change (do
          let h ← Header.read h0
          return { d0.clear with header := h } : Rd (Drawing Img)) _ = _
        exact Rd.bind_ok hr
      · change (do
          let h ← Header.readUntil h0
          return h.map fun h => { d0.clear with header := h } : Rd (Option (Drawing Img))) _ = _
        exact Rd.bind_ok (Header.readUntil_written hq hf.version rfl hr)
    -- classes
    have s2 : SectionsTo (d.version ≤ .r2004) codec h0 { d0.clear with header := r } (toStream d.classPairs ++
        (toStream d.tablePairs ++ (toStream d.blockPairs ++ (toStream d.entityPairs ++
        (toStream ops ++ toStream (tps ++ [.newStr 0 str!"EOF"]))))))
        p.outline (toStream d.tablePairs ++ (toStream d.blockPairs ++ (toStream d.entityPairs ++
        (toStream ops ++ toStream (tps ++ [.newStr 0 str!"EOF"]))))) := by
      unfold classPairs
      by_cases hc : d.classes = []
      · have : ({ d0.clear with header := r } : Drawing Img) = p.outline := by
          simp [clear, outline, p, hc]
        rw [this, hc]
        exact .refl
      · rw [if_neg (by simpa using hc)]
        refine SectionsTo.one ?_
        change (do
          let cs ← Rd.withFuel (Class.readAll (Header.version r))
          return { d0.clear with
            header := r
            classes := [] ++ cs } : Rd (Drawing Img)) _ = _
        rw [hver]
        have := C23_partial d.version d.classes hf.classNames hf.classCounts
          (toStream d.tablePairs ++ (toStream d.blockPairs ++ (toStream d.entityPairs ++
            (toStream ops ++ toStream (tps ++ [.newStr 0 str!"EOF"])))))
        rw [toStream_append, List.append_assoc] at this
        exact Rd.bind_ok this
    -- tables
    have s3 : SectionsTo (d.version ≤ .r2004) codec h0 p.outline (toStream d.tablePairs ++ (toStream d.blockPairs ++
        (toStream d.entityPairs ++ (toStream ops ++ toStream (tps ++ [.newStr 0 str!"EOF"])))))
        d1 (toStream d.blockPairs ++
        (toStream d.entityPairs ++ (toStream ops ++ toStream (tps ++ [.newStr 0 str!"EOF"])))) :=
      SectionsTo.one (htab p.outline d1 a1).done
    have hno : d4.thumbnail = none := by
      obtain ⟨_, _, _, _, _, r6, _⟩ := fill_rest a1
      rw [(objected a4).thumbnail, (entitied a3).thumbnail, (blocked a2).thumbnail, r6]
      rfl
    exact s1.trans (s2.trans (s3.trans ((hblk d1 d2 a2).trans ((hents d2 d3 a3).trans
      ((hobj d3 d4 a4).trans (hthumb d4 hno))))))

end Drawing

end Dxf
