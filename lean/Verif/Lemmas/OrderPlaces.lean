import Verif.Lemmas.OrderItems

/-! Objects, table entries, blocks, classes and header variables in another order. -/

namespace Dxf

/-! ### Objects -/

/-- What a pair with the code of a field does to an object. -/
def OName.act (k : OName) (p : CodePair) (st : OState k) : Except DxfErr (OState k) :=
  (fieldAct (k.kind.arms st.1) p st.2.1).map fun e => (k.kind.next st.1 p, e, st.2.2)

theorem OName.odd_free {k : OName} (hk : k ∉ OName.nested) {p : CodePair} (h : p.code ∉ k.fixed)
    (m : OMode) (w : OWork) : k.odd m p w = none := by
  have hd : p.code ∉ [(3 : Int), 350, 360] → w.dictionary p = none := by
    intro h
    simp only [List.mem_cons, List.not_mem_nil, or_false, not_or] at h
    unfold OWork.dictionary
    rw [if_neg h.1, if_neg (by omega)]
  cases k <;> first
    | rfl
    | exact absurd (by decide) hk
    | exact hd h
    | skip
  case dataTable =>
    change p.code ∉ [(1 : Int), 2, 3, 10, 11, 20, 21, 30, 31, 40, 71, 90, 91, 92, 93, 330, 331, 340,
      350, 360] at h
    change w.dataTable p = none
    generalize hc : p.code = c at h
    unfold OWork.dataTable
    dsimp only
    rw [hc]
    split <;> first
      | exact absurd (by decide) h
      | exact if_neg fun h' => h ((by decide : [(330 : Int), 331, 340, 350, 360] ⊆ _) h'.1)
  case spatialFilter =>
    change p.code ∉ [(10 : Int), 20, 30, 40] at h
    simp only [List.mem_cons, List.not_mem_nil, or_false, not_or] at h
    change w.spatial m p = none
    unfold OWork.spatial
    rw [if_neg h.1, if_neg h.2.1, if_neg h.2.2.1, if_neg fun h' => h.2.2.2 h'.1]
  case sunStudy =>
    change p.code ∉ [(73 : Int), 90, 290] at h
    simp only [List.mem_cons, List.not_mem_nil, or_false, not_or] at h
    change w.sunStudy m p = none
    unfold OWork.sunStudy
    rw [if_neg fun h' => h.2.1 h'.1, if_neg fun h' => h.2.2 h'.1]

theorem OName.step_field {k : OName} (hk : k ∉ OName.nested) {p : CodePair} (h : FieldCode p.code)
    (hf : p.code ∉ k.fixed) (st : OState k) : k.step p st = Rd.lift (k.act p st) := by
  unfold OName.step OName.act
  rw [OName.odd_free hk hf]
  dsimp only
  rw [entryApply_field _ h]
  cases fieldAct (k.kind.arms st.1) p st.2.1 <;> rfl

theorem OName.next_free {k : OName} (hk : k ∉ OName.nested) {p : CodePair} (h : p.code ∉ k.fixed)
    (m : OMode) : k.kind.next m p = m := by
  cases k <;> first
    | rfl
    | exact absurd (by decide) hk
    | skip
  case layout =>
    change p.code ∉ [(100 : Int)] at h
    simp only [List.mem_cons, List.not_mem_nil, or_false] at h
    change Obj.layoutNext m p = m
    unfold Obj.layoutNext
    rw [if_neg h]
  case material =>
    change p.code ∉ [(3 : Int), 42, 72, 73, 74, 75, 90, 270, 271, 272, 273, 465] at h
    simp only [List.mem_cons, List.not_mem_nil, or_false, not_or] at h
    change Obj.materialNext m p = m
    unfold Obj.materialNext
    rw [if_neg (by simp; omega), if_neg (by simp; omega), if_neg (by simp; omega), if_neg (by omega)]
  case mLineStyle =>
    change p.code ∉ [(71 : Int)] at h
    simp only [List.mem_cons, List.not_mem_nil, or_false] at h
    change Obj.mLineStyleNext m p = m
    unfold Obj.mLineStyleNext
    rw [if_neg h]
  case spatialFilter =>
    change p.code ∉ [(10 : Int), 20, 30, 40] at h
    simp only [List.mem_cons, List.not_mem_nil, or_false, not_or] at h
    change Obj.spatialNext m p = m
    unfold Obj.spatialNext
    rw [if_neg h.2.2.2]
  case sunStudy =>
    change p.code ∉ [(73 : Int), 90, 290] at h
    simp only [List.mem_cons, List.not_mem_nil, or_false, not_or] at h
    change Obj.sunStudyNext m p = m
    unfold Obj.sunStudyNext
    rw [if_neg (by omega), if_neg h.2.1]
  case sortentsTable =>
    change p.code ∉ [(5 : Int), 100, 330, 331] at h
    change Obj.sortentsNext m p = m
    unfold Obj.sortentsNext
    rw [if_neg h]

theorem OName.free_modes {k : OName} (hk : k ∉ OName.nested) (m : OMode) : ∃ a,
    freeArms k.fixed (k.kind.arms m) = freeArms k.fixed (k.kind.arms ⟨a, []⟩) := by
  obtain ⟨a, l⟩ := m
  refine ⟨a, ?_⟩
  cases k <;> first
    | rfl
    | exact absurd (by decide) hk

theorem OName.clashes_ok {k : OName} (hk : k ∉ OName.nested) (m : OMode) :
    ArmsSwap (freeArms k.fixed (k.kind.arms m)) [] := by
  have key : OName.all.all (fun k => decide (k ∈ OName.nested) || [false, true].all fun a =>
      (clashing (freeArms k.fixed (k.kind.arms ⟨a, []⟩))).isEmpty) = true := by
    decide +kernel
  obtain ⟨a, e⟩ := OName.free_modes hk m
  rw [e]
  have := List.all_eq_true.mp key k (by cases k <;> decide)
  simp only [hk, decide_false, Bool.false_or] at this
  have := List.all_eq_true.mp this a (by cases a <;> decide)
  refine armsSwap_of fun x hx => ?_
  rw [List.isEmpty_iff.mp this] at hx
  cases hx

theorem OName.act_swaps {k : OName} (hk : k ∉ OName.nested) {p q : CodePair}
    (hp : p.code ∉ k.fixed) (hq : q.code ∉ k.fixed) (hpq : p.code ≠ q.code) :
    Swaps k.act p q := by
  rintro ⟨m, e, w⟩ ⟨m1, e1, w1⟩ ⟨m2, e2, w2⟩ he1 he2
  unfold OName.act at he1 he2 ⊢
  obtain ⟨f1, h3, h4⟩ := except_map_ok he1
  obtain ⟨f2, h5, h6⟩ := except_map_ok he2
  cases h4
  cases h6
  dsimp only at h3 h5 ⊢
  rw [OName.next_free hk hp] at h5 ⊢
  rw [OName.next_free hk hq]
  rw [← fieldAct_free k.fixed _ hp] at h3
  rw [← fieldAct_free k.fixed _ hq] at h5
  obtain ⟨e3, h7, h8⟩ := fieldAct_swaps (OName.clashes_ok hk m) hpq (by simp) (by simp) _ _ _ h3 h5
  rw [fieldAct_free k.fixed _ hq] at h7
  rw [fieldAct_free k.fixed _ hp] at h8
  refine ⟨(m, e3, w), ?_, ?_⟩
  · rw [h7]
    rfl
  · dsimp only
    rw [h8]
    simp only [Except.map, OName.next_free hk hp]

theorem nextObject_order {k : OName} (hk : k ∉ OName.nested) {ps qs : List CodePair}
    (hps : ∀ p ∈ ps, FieldCode p.code ∧ p.code ∉ k.fixed) (hr : Reordered CodePair.code ps qs)
    {op : CodePair} {x : Str}
    (hop : op.code = 0 ∧ op.value = .str x) (hx : OName.ofType x = some k)
    (he : x ≠ str!"ENDSEC" ∧ x ≠ str!"ENDBLK") {st1 st2 : OState k} {u z : Stream}
    (hfi : Fine false (u ++ (toStream ps ++ z)))
    (hh : Steps (oneObjectPair k) (OMode.start, Entry.dflt k.decls, {}) (u ++ (toStream ps ++ z)) st1
      (toStream ps ++ z))
    (hh' : Steps (oneObjectPair k) st1 (toStream ps ++ z) st2 z) :
    nextObject (some (.ok op) :: (u ++ (toStream qs ++ z))) =
      nextObject (some (.ok op) :: (u ++ (toStream ps ++ z))) := by
  have hlen := hr.length
  have hs := item_order k.kind.eof (fun p st => k.step_outside hk p st) (act := k.act)
    (fun p hp => ⟨(hps p hp).1.outside, (hps p hp).1.1,
      fun st => OName.step_field hk (hps p hp).1 (hps p hp).2 st⟩)
    (fun p hp q hq hpq => OName.act_swaps hk (hps p hp).2 (hps q hq).2 hpq) hr hfi hh hh'
  have : Rd.withFuel readObject (some (.ok op) :: (u ++ (toStream qs ++ z))) =
      Rd.withFuel readObject (some (.ok op) :: (u ++ (toStream ps ++ z))) := by
    rw [Rd.run_withFuel, Rd.run_withFuel]
    have o1 := fun n y => readObject_open n [] (by simp) op hop.1 x
      (by unfold CodePair.assertString; rw [hop.2]) (by simp [he]) y
    simp only [toStream_nil, List.nil_append] at o1
    rw [o1, o1]
    unfold objectBody
    simp only [hx]
    rw [Rd.run_bind, Rd.run_bind, hs]
  unfold nextObject
  rw [this]

/-! ### Table entries -/

/-- Two fields are set. -/
def Rec.both {ds : List Decl} (r : Rec ds) {i j : Nat} (v : (tyAt ds i).den) (w : (tyAt ds j).den) :
    Rec ds := (r.set i v).set j w

theorem both_after {ds : List Decl} {r r2 : Rec ds} {i j n : Nat} {v : (tyAt ds i).den}
    {w : (tyAt ds j).den} {g : FRead (tyAt ds n)} {q : CodePair} (hi : n ≠ i) (hj : n ≠ j)
    (h : (Act.on n g).apply (r.both v w) q = .ok r2) :
    ∃ r3, (Act.on n g).apply r q = .ok r3 ∧ r3.both v w = r2 := by
  unfold Act.apply at h ⊢
  obtain ⟨x, hx, rfl⟩ := except_map_ok h
  unfold Rec.both at hx ⊢
  rw [Rec.set_ne _ _ hj, Rec.set_ne _ _ hi] at hx
  refine ⟨r.set n x, by dsimp only; rw [hx]; rfl, ?_⟩
  rw [Rec.set_comm _ hi, Rec.set_comm _ hj]

theorem both_before {ds : List Decl} {r r1 : Rec ds} {i j n : Nat} {v : (tyAt ds i).den}
    {w : (tyAt ds j).den} {g : FRead (tyAt ds n)} {q : CodePair} (hi : n ≠ i) (hj : n ≠ j)
    (h : (Act.on n g).apply r q = .ok r1) :
    (Act.on n g).apply (r.both v w) q = .ok (r1.both v w) := by
  unfold Act.apply at h ⊢
  obtain ⟨x, hx, rfl⟩ := except_map_ok h
  unfold Rec.both
  dsimp only
  rw [Rec.set_ne _ _ hj, Rec.set_ne _ _ hi, hx]
  change Except.ok _ = _
  rw [Rec.set_comm _ hi, Rec.set_comm _ hj]

theorem layerColor_ok {p : CodePair} {r r1 : Rec Tables.layerDecls}
    (h : Tables.readLayerColor.apply r p = .ok r1) :
    ∃ (on : (tyAt Tables.layerDecls 9).den) (c : (tyAt Tables.layerDecls 3).den),
      ∀ r', Tables.readLayerColor.apply r' p = .ok (r'.both on c) := by
  unfold Tables.readLayerColor Act.apply at h ⊢
  dsimp only at h ⊢
  cases hv : p.assertI16 with
  | error e => rw [hv] at h; cases h
  | ok v =>
    rw [hv] at h
    dsimp only at h ⊢
    cases hc : readColor v with
    | none => rw [hc] at h; cases h
    | some x => exact ⟨x.1, x.2.raw, fun r' => rfl⟩

theorem layer_clashes : ArmsSwap Tables.layer.arms [] := by
  have key : ∀ a ∈ Tables.layerArms, (a.code = 62 ∧ a.act = Tables.readLayerColor) ∨
      ∃ j f, a.act = .on j f ∧ j ≠ 3 ∧ j ≠ 9 := by
    intro a ha
    simp only [Tables.layerArms, List.mem_cons, List.not_mem_nil, or_false] at ha
    rcases ha with rfl | rfl | rfl | rfl | rfl | rfl | rfl | rfl | rfl
    all_goals first
      | exact .inl ⟨rfl, rfl⟩
      | exact .inr ⟨_, _, rfl, by decide, by decide⟩
  intro a ha b hb hab _ _
  rcases key a ha with ⟨ca, ea⟩ | ⟨i, f, ea, hi⟩
  · rcases key b hb with ⟨cb, eb⟩ | ⟨j, g, eb, hj⟩
    · exact absurd (ca.trans cb.symm) hab
    · intro p q r r1 r2 hp hq
      rw [ea] at hp ⊢
      rw [eb] at hq ⊢
      obtain ⟨on, c, hc⟩ := layerColor_ok hp
      cases (hc r).symm.trans hp
      obtain ⟨r3, h3, rfl⟩ := both_after hj.2 hj.1 hq
      exact ⟨r3, h3, hc r3⟩
  · rcases key b hb with ⟨cb, eb⟩ | ⟨j, g, eb, hj⟩
    · intro p q r r1 r2 hp hq
      rw [ea] at hp ⊢
      rw [eb] at hq ⊢
      obtain ⟨on, c, hc⟩ := layerColor_ok hq
      cases (hc _).symm.trans hq
      exact ⟨_, hc r, both_before hi.2 hi.1 hp⟩
    · intro p q r r1 r2 hp hq
      refine Act.apply_swap ?_ hp hq
      have h1 : Tables.layerArms.all (fun a => Tables.layerArms.all fun b => a.code == b.code ||
          a.code == 62 || b.code == 62 || a.act.apart b.act) = true := by decide +kernel
      have h2 := List.all_eq_true.mp (List.all_eq_true.mp h1 a ha) b hb
      have h3 : ∀ a ∈ Tables.layerArms, a.code = 62 → a.act = Tables.readLayerColor := by
        intro a ha h
        simp only [Tables.layerArms, List.mem_cons, List.not_mem_nil, or_false] at ha
        rcases ha with rfl | rfl | rfl | rfl | rfl | rfl | rfl | rfl | rfl
        all_goals first
          | rfl
          | exact absurd h (by decide)
      have na : a.code ≠ 62 := fun h => by
        have := (h3 a ha h).symm.trans ea
        cases this
      have nb : b.code ≠ 62 := fun h => by
        have := (h3 b hb h).symm.trans eb
        cases this
      simp only [beq_iff_eq, Bool.or_eq_true, hab, na, nb, false_or] at h2
      exact h2

theorem TName.clashes_ok (t : TName) : ArmsSwap t.kind.arms t.clashes := by
  have key : TName.all.all (fun t => decide (t = .layer) ||
      (clashing t.kind.arms).all fun x => t.clashes.contains x) = true := by
    decide +kernel
  by_cases ht : t = .layer
  · subst ht
    exact layer_clashes
  have := List.all_eq_true.mp key t (by cases t <;> decide)
  simp only [ht, decide_false, Bool.false_or] at this
  refine armsSwap_of fun x hx => ?_
  simpa using List.all_eq_true.mp this x hx

theorem entries_order (t : TName) {ps qs : List CodePair} (hps : ∀ p ∈ ps, FieldCode p.code)
    (hcl : ∀ p ∈ ps, ∀ q ∈ ps, (p.code, q.code) ∉ t.clashes) (hr : Reordered CodePair.code ps qs)
    {xs : List (TableItem t.kind)} {e1 e2 : TableItem t.kind} {u w : Stream} {op : CodePair}
    {z : Stream} (hop : op.code = 0 ∧ op.value = .str t.kind.typeString)
    (hfi : Fine false (u ++ some (.ok op) :: (w ++ (toStream ps ++ z))))
    (hh : Steps (oneEntry t.kind) [] (u ++ some (.ok op) :: (w ++ (toStream ps ++ z))) xs
      (some (.ok op) :: (w ++ (toStream ps ++ z))))
    (h1 : Steps (oneField t.kind.arms) (Entry.dflt t.kind.decls) (w ++ (toStream ps ++ z)) e1
      (toStream ps ++ z))
    (h2 : Steps (oneField t.kind.arms) e1 (toStream ps ++ z) e2 z) :
    Same (Rd.withFuel t.kind.read) (u ++ some (.ok op) :: (w ++ (toStream ps ++ z)))
      (u ++ some (.ok op) :: (w ++ (toStream qs ++ z))) := by
  rw [← entriesFrom_nil]
  have hlen := hr.length
  have hfw : Fine false (w ++ (toStream ps ++ z)) :=
    hfi.suffix ((List.suffix_cons _ _).trans (List.suffix_append _ _))
  have hl : (w ++ (toStream qs ++ z)).length = (w ++ (toStream ps ++ z)).length := by
    simp only [List.length_append, toStream_length]; omega
  refine Steps.same (oneEntry_passes t.kind) (f := entriesFrom t.kind) (oneEntry_loop t.kind)
    (q := op) (q' := op) hop.1 hop.1 (by omega) hh hfi fun k hc => ?_
  have hs := item_order false (fun p st => entryApply_locC (fun _ h => h) t.kind.arms p st)
    (act := fieldAct t.kind.arms)
    (fun p hp => ⟨(hps p hp).outside, (hps p hp).1, fun st => entryApply_field _ (hps p hp) st⟩)
    (fun p hp q hq hpq => fieldAct_swaps t.clashes_ok hpq (hcl p hp q hq) (hcl q hq p hp)) hr hfw h1 h2
  have o : ∀ k y, t.kind.read (k + 1) (some (.ok op) :: y) = _ := fun k y =>
    read_entry t.kind k [] (by simp) op hop.1 hop.2 y
  rw [hl, Nat.sub_self, Nat.add_zero]
  have : entriesFrom t.kind (k + 1) xs (some (.ok op) :: (w ++ (toStream qs ++ z))) =
      entriesFrom t.kind (k + 1) xs (some (.ok op) :: (w ++ (toStream ps ++ z))) := by
    unfold entriesFrom
    rw [Rd.run_bind, Rd.run_bind, o, o, Rd.run_bind, Rd.run_bind, hs]
  rw [this]
  exact .refl

/-! ### Blocks -/

theorem block_clashes : ArmsSwap Blocks.arms [] := by
  have key : clashing Blocks.arms = [] := by decide +kernel
  exact armsSwap_of fun x hx => by rw [key] at hx; cases hx

theorem blockRead_order {ps qs : List CodePair} (hps : ∀ p ∈ ps, FieldCode p.code)
    (hr : Reordered CodePair.code ps qs) {e1 e2 : Entry Blocks.decls} {u z : Stream}
    (hfi : Fine false (u ++ (toStream ps ++ z)))
    (h1 : Steps (oneField Blocks.arms) Block.dflt.entry (u ++ (toStream ps ++ z)) e1
      (toStream ps ++ z))
    (h2 : Steps (oneField Blocks.arms) e1 (toStream ps ++ z) e2 z) :
    Same Block.read (u ++ (toStream ps ++ z)) (u ++ (toStream qs ++ z)) := by
  intro hc
  have hlen := hr.length
  have hl : (u ++ (toStream qs ++ z)).length = (u ++ (toStream ps ++ z)).length := by
    simp only [List.length_append, toStream_length]; omega
  have hs := item_order false (fun p st => entryApply_locC (fun _ h => h) Blocks.arms p st)
    (act := fieldAct Blocks.arms)
    (fun p hp => ⟨(hps p hp).outside, (hps p hp).1, fun st => entryApply_field _ (hps p hp) st⟩)
    (fun p hp q hq hpq => fieldAct_swaps block_clashes hpq (by simp) (by simp)) hr hfi h1 h2
  have : Block.read (u ++ (toStream qs ++ z)) = Block.read (u ++ (toStream ps ++ z)) := by
    unfold Block.read
    rw [Rd.run_withFuel, Rd.run_withFuel, hl]
    unfold Block.readFrom
    rw [Rd.run_bind, Rd.run_bind, hs]
  rw [this]
  exact .refl

/-! ### Classes -/

/-- An assignment to a field of a class. -/
inductive ClassSet where
  | recordName (s : Str)
  | className (s : Str)
  | applicationName (s : Str)
  | versionNumber (n : I32)
  | proxyFlags (n : I32)
  | instanceCount (n : BitVec 64)
  | loaded (b : Bool)
  | isEntity (b : Bool)

/-- The class after it. -/
def ClassSet.put (c : Class) : ClassSet → Class
  | .recordName s => { c with recordName := s }
  | .className s => { c with className := s }
  | .applicationName s => { c with applicationName := s }
  | .versionNumber n => { c with versionNumber := n }
  | .proxyFlags n => { c with proxyCapabilityFlags := n }
  | .instanceCount n => { c with instanceCount := n }
  | .loaded b => { c with wasClassLoadedWithFile := b }
  | .isEntity b => { c with isEntity := b }

/-- The code it comes from. -/
def ClassSet.code (v : Version) : ClassSet → Int
  | .recordName _ => 1
  | .className _ => if v ≤ .r13 then 1 else 2
  | .applicationName _ => if v ≤ .r13 then 2 else 3
  | .versionNumber _ => 90
  | .proxyFlags _ => 90
  | .instanceCount _ => 91
  | .loaded _ => 280
  | .isEntity _ => 281

theorem classApply_put {v : Version} {p : CodePair} {c c1 : Class} (h : Class.apply v p c = .ok c1) :
    (∀ c', Class.apply v p c' = .ok c') ∨
      ∃ a : ClassSet, a.code v = p.code ∧ ∀ c', Class.apply v p c' = .ok (a.put c') := by
  have hv : Version.r14 ≤ v ↔ ¬ v ≤ .r13 := by cases v <;> decide
  unfold Class.apply at h ⊢
  by_cases h1 : p.code = 1
  · simp only [if_pos h1] at h ⊢
    obtain ⟨x, hx, -⟩ := except_map_ok h
    rw [hx]
    by_cases h13 : v ≤ .r13
    · exact .inr ⟨.className x, by simp [ClassSet.code, h13, h1], fun c' => by
        simp [Except.map, h13, ClassSet.put]⟩
    · exact .inr ⟨.recordName x, by simp [ClassSet.code, h1], fun c' => by
        simp [Except.map, h13, ClassSet.put]⟩
  simp only [if_neg h1] at h ⊢
  by_cases h2 : p.code = 2
  · simp only [if_pos h2] at h ⊢
    obtain ⟨x, hx, -⟩ := except_map_ok h
    rw [hx]
    by_cases h13 : v ≤ .r13
    · exact .inr ⟨.applicationName x, by simp [ClassSet.code, h13, h2], fun c' => by
        simp [Except.map, h13, ClassSet.put]⟩
    · exact .inr ⟨.className x, by simp [ClassSet.code, h13, h2], fun c' => by
        simp [Except.map, h13, ClassSet.put]⟩
  simp only [if_neg h2] at h ⊢
  by_cases h3 : p.code = 3
  · simp only [if_pos h3] at h ⊢
    by_cases h13 : v ≤ .r13
    · simp only [hv, h13, not_true, if_false] at h ⊢
      exact .inl fun _ => trivial
    · simp only [hv, h13, not_false_iff, if_true] at h ⊢
      obtain ⟨x, hx, -⟩ := except_map_ok h
      rw [hx]
      exact .inr ⟨.applicationName x, by simp [ClassSet.code, h13, h3], fun c' => rfl⟩
  simp only [if_neg h3] at h ⊢
  by_cases h4 : p.code = 90
  · simp only [if_pos h4] at h ⊢
    obtain ⟨x, hx, -⟩ := except_map_ok h
    rw [hx]
    by_cases h13 : v ≤ .r13
    · exact .inr ⟨.versionNumber x, by simp [ClassSet.code, h4], fun c' => by
        simp [Except.map, h13, ClassSet.put]⟩
    · exact .inr ⟨.proxyFlags x, by simp [ClassSet.code, h4], fun c' => by
        simp [Except.map, h13, ClassSet.put]⟩
  simp only [if_neg h4] at h ⊢
  by_cases h5 : p.code = 91
  · simp only [if_pos h5] at h ⊢
    obtain ⟨x, hx, -⟩ := except_map_ok h
    rw [hx]
    exact .inr ⟨.instanceCount _, by simp [ClassSet.code, h5], fun c' => rfl⟩
  simp only [if_neg h5] at h ⊢
  by_cases h6 : p.code = 280
  · simp only [if_pos h6] at h ⊢
    obtain ⟨x, hx, -⟩ := except_map_ok h
    rw [hx]
    exact .inr ⟨.loaded _, by simp [ClassSet.code, h6], fun c' => rfl⟩
  simp only [if_neg h6] at h ⊢
  by_cases h7 : p.code = 281
  · simp only [if_pos h7] at h ⊢
    obtain ⟨x, hx, -⟩ := except_map_ok h
    rw [hx]
    exact .inr ⟨.isEntity _, by simp [ClassSet.code, h7], fun c' => rfl⟩
  simp only [if_neg h7] at h ⊢
  exact .inl fun _ => trivial

theorem ClassSet.put_comm {v : Version} {a b : ClassSet} (h : a.code v ≠ b.code v) (c : Class) :
    b.put (a.put c) = a.put (b.put c) := by
  cases a <;> cases b <;> first
    | rfl
    | exact absurd rfl h

theorem classApply_swaps (v : Version) {p q : CodePair} (hpq : p.code ≠ q.code) :
    Swaps (Class.apply v) p q := by
  intro c c1 c2 h1 h2
  rcases classApply_put h1 with hp | ⟨a, ha, hp⟩
  · cases (hp c).symm.trans h1
    exact ⟨c2, h2, hp c2⟩
  · rcases classApply_put h2 with hq | ⟨b, hb, hq⟩
    · cases (hq c1).symm.trans h2
      exact ⟨c, hq c, h1⟩
    · cases (hp c).symm.trans h1
      cases (hq _).symm.trans h2
      refine ⟨_, hq c, ?_⟩
      rw [hp, ClassSet.put_comm (v := v) (by rw [ha, hb]; exact hpq.symm)]

theorem classes_order (v : Version) {ps qs : List CodePair} (hps : ∀ p ∈ ps, FieldCode p.code)
    (hr : Reordered CodePair.code ps qs) {cs : List Class} {c1 c2 : Class} {u w : Stream}
    {op : CodePair} {z : Stream} {s : Str} (hop : op.code = 0 ∧ op.value = .str s)
    (hs : s ≠ str!"ENDSEC") (hfi : Fine false (u ++ some (.ok op) :: (w ++ (toStream ps ++ z))))
    (hh : Steps (oneClass v) [] (u ++ some (.ok op) :: (w ++ (toStream ps ++ z))) cs
      (some (.ok op) :: (w ++ (toStream ps ++ z))))
    (h1 : Steps (oneClassPair v) (if v ≤ .r13 then { Class.dflt with recordName := s } else
      Class.dflt) (w ++ (toStream ps ++ z)) c1 (toStream ps ++ z))
    (h2 : Steps (oneClassPair v) c1 (toStream ps ++ z) c2 z) :
    Same (Rd.withFuel (Class.readAll v)) (u ++ some (.ok op) :: (w ++ (toStream ps ++ z)))
      (u ++ some (.ok op) :: (w ++ (toStream qs ++ z))) := by
  rw [← classesFrom_nil]
  have hlen := hr.length
  have hfw : Fine false (w ++ (toStream ps ++ z)) :=
    hfi.suffix ((List.suffix_cons _ _).trans (List.suffix_append _ _))
  have hl : (w ++ (toStream qs ++ z)).length = (w ++ (toStream ps ++ z)).length := by
    simp only [List.length_append, toStream_length]; omega
  refine Steps.same (oneClass_passes v) (f := classesFrom v) (oneClass_loop v) (q := op) (q' := op)
    hop.1 hop.1 (by omega) hh hfi fun k hc => ?_
  have hsk := item_order false (step := fun p c => Rd.lift (Class.apply v p c)) (fun p st => .lift)
    (act := Class.apply v)
    (fun p hp => ⟨(hps p hp).outside, (hps p hp).1, fun st => rfl⟩)
    (fun p hp q hq hpq => classApply_swaps v hpq) hr hfw h1 h2
  have o : ∀ k y, Class.readAll v (k + 1) (some (.ok op) :: y) = _ := fun k y =>
    readAll_class v k [] (by simp) op hop.1 s (by unfold CodePair.assertString; rw [hop.2]) hs y
  rw [hl, Nat.sub_self, Nat.add_zero]
  have : classesFrom v (k + 1) cs (some (.ok op) :: (w ++ (toStream qs ++ z))) =
      classesFrom v (k + 1) cs (some (.ok op) :: (w ++ (toStream ps ++ z))) := by
    unfold classesFrom
    rw [Rd.run_bind, Rd.run_bind, o, o, Rd.run_bind, Rd.run_bind]
    unfold Class.read
    rw [hsk]
  rw [this]
  exact .refl

end Dxf
