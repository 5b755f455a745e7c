import Verif.Lemmas.Order

/-! Items whose pairs stand in another order. -/

namespace Dxf

theorem fold_loop {σ : Type} (eof : Bool) {step : CodePair → σ → Rd σ}
    {act : CodePair → σ → Except DxfErr σ} {ps : List CodePair} :
    (∀ p ∈ ps, p.code ≠ 0 ∧ p.code ≠ 999 ∧ ∀ st, step p st = Rd.lift (act p st)) →
    ∀ {st st' : σ}, foldAct act st ps = .ok st' → ∀ (k : Nat) (z : Stream),
    itemLoop eof step (k + ps.length) st (toStream ps ++ z) = itemLoop eof step k st' z := by
  induction ps with
  | nil =>
    intro _ st st' h k z
    cases h
    rfl
  | cons p ps ih =>
    intro hok st st' h k z
    obtain ⟨st1, h1, h2⟩ := except_bind_ok h
    obtain ⟨h3, h4, h5⟩ := hok p (by simp)
    have h6 : pairBy step st (some (.ok p) :: (toStream ps ++ z)) = (.ok st1, toStream ps ++ z) := by
      unfold pairBy
      refine (Rd.bind_ok (Rd.next_cons h4 _)).trans ?_
      rw [if_neg h3, h5, h1]
      rfl
    rw [List.length_cons, ← Nat.add_assoc, toStream_cons, List.cons_append, pairBy_loop eof _ _ _ _ _ h6]
    exact ih (fun p hp => hok p (by simp [hp])) h2 k z

theorem steps_fold {σ : Type} {step : CodePair → σ → Rd σ} {act : CodePair → σ → Except DxfErr σ}
    (hstep : ∀ p st, LocC Outside (step p st)) {ps : List CodePair} :
    (∀ p ∈ ps, p.code ≠ 0 ∧ p.code ≠ 999 ∧ ∀ st, step p st = Rd.lift (act p st)) →
    ∀ {st st' : σ} {z : Stream}, Fine false (toStream ps ++ z) →
    Steps (pairBy step) st (toStream ps ++ z) st' z → foldAct act st ps = .ok st' := by
  have hg := pairBy_passes hstep
  induction ps with
  | nil =>
    intro _ st st' z hfi h
    rw [toStream_nil, List.nil_append] at h hfi
    cases h with
    | here => rfl
    | next h1 h2 =>
      obtain ⟨h3, h4⟩ := hg.less _ _ _ _ hfi h1
      have := (Steps.suffix hg h2 (hfi.suffix h3)).length_le
      omega
  | cons p ps ih =>
    intro hok st st' z hfi h
    rw [toStream_cons, List.cons_append] at h hfi
    obtain ⟨h3, h4, h5⟩ := hok p (by simp)
    generalize hz : some (Except.ok p) :: (toStream ps ++ z) = y at h
    cases h with
    | here =>
      have := congrArg List.length hz
      simp only [List.length_cons, List.length_append] at this
      omega
    | next h1 h2 =>
      subst hz
      unfold pairBy at h1
      have e := Rd.bind_ok (f := fun pair => if pair.code = 0 then Rd.fail (.unexpectedCodePair pair)
        else step pair st) (Rd.next_cons h4 (toStream ps ++ z))
      rw [e, if_neg h3, h5] at h1
      unfold Rd.lift at h1
      obtain ⟨h6, rfl⟩ := Prod.mk.inj h1
      rw [foldAct_cons h6]
      exact ih (fun p hp => hok p (by simp [hp])) (hfi.suffix (List.suffix_cons _ _)) h2

/-- Another order of pairs inside an item. -/
theorem item_order {σ : Type} (eof : Bool) {step : CodePair → σ → Rd σ}
    {act : CodePair → σ → Except DxfErr σ} (hstep : ∀ p st, LocC Outside (step p st))
    {ps qs : List CodePair}
    (hok : ∀ p ∈ ps, Outside p.code ∧ p.code ≠ 0 ∧ ∀ st, step p st = Rd.lift (act p st))
    (hsw : ∀ p ∈ ps, ∀ q ∈ ps, p.code ≠ q.code → Swaps act p q)
    (hr : Reordered CodePair.code ps qs) {st st1 st2 : σ} {u z : Stream}
    (hfi : Fine false (u ++ (toStream ps ++ z)))
    (hh : Steps (pairBy step) st (u ++ (toStream ps ++ z)) st1 (toStream ps ++ z))
    (hh' : Steps (pairBy step) st1 (toStream ps ++ z) st2 z) :
    Rd.withFuel (fun n => itemLoop eof step n st) (u ++ (toStream qs ++ z)) =
      Rd.withFuel (fun n => itemLoop eof step n st) (u ++ (toStream ps ++ z)) := by
  have hok' : ∀ p ∈ ps, p.code ≠ 0 ∧ p.code ≠ 999 ∧ ∀ st, step p st = Rd.lift (act p st) :=
    fun p hp => ⟨(hok p hp).2.1, (hok p hp).1.2, (hok p hp).2.2⟩
  have f1 := steps_fold hstep hok' (hfi.suffix (List.suffix_append _ _)) hh'
  have f2 := foldAct_reordered hr hsw f1
  have l1 := fold_loop eof hok' f1
  have l2 := fold_loop eof (fun p hp => hok' p (hr.mem.mp hp)) f2
  have hlen := hr.length
  cases ps with
  | nil => rw [List.eq_nil_of_length_eq_zero hlen]
  | cons p ps =>
    cases qs with
    | nil => cases hlen
    | cons q qs =>
      rw [List.length_cons, List.length_cons] at hlen
      have hz : (toStream ps ++ z).length = (toStream qs ++ z).length := by
        simp only [List.length_append, toStream_length]; omega
      simp only [toStream_cons, List.cons_append] at hfi hh l1 l2 ⊢
      obtain ⟨_, n, hn, h1, h2⟩ := Steps.loop (pairBy_passes hstep)
        (f := fun n st => itemLoop eof step n st) (pairBy_loop eof) (q := p) (q' := q)
        (z' := toStream qs ++ z) (hok p (by simp)).1 (hok q (hr.mem.mp (by simp))).1
        (by omega) hh hfi
      rw [Rd.run_withFuel, Rd.run_withFuel]
      have e1 : (u ++ some (.ok p) :: (toStream ps ++ z)).length + 1 =
          (u.length + z.length + 1 - n) + (p :: ps).length + n := by
        simp only [List.length_append, List.length_cons, toStream_length]; omega
      have e2 : (u ++ some (.ok q) :: (toStream qs ++ z)).length + 1 =
          (u.length + z.length + 1 - n) + (q :: qs).length + n := by
        simp only [List.length_append, List.length_cons, toStream_length]; omega
      rw [e1, e2, h1, h2, l1, l2]

/-! ### Entries -/

/-- What a pair with the code of a field does to an entry. -/
def fieldAct {ds : List Decl} (arms : List (Arm ds)) (p : CodePair) (e : Entry ds) :
    Except DxfErr (Entry ds) :=
  (applyPair arms e.fields p).map fun r => { e with fields := r }

theorem entryApply_field {ds : List Decl} (arms : List (Arm ds)) {p : CodePair}
    (h : FieldCode p.code) (e : Entry ds) : Entry.apply arms p e = Rd.lift (fieldAct arms p e) := by
  obtain ⟨_, h1, _, h2⟩ := h
  unfold Entry.apply fieldAct
  rw [if_neg h1, if_neg (by omega)]
  cases applyPair arms e.fields p <;> rfl

theorem fieldAct_swaps {ds : List Decl} {arms : List (Arm ds)} {bad : List (Int × Int)}
    (hb : ArmsSwap arms bad) {p q : CodePair} (hpq : p.code ≠ q.code)
    (h1 : (p.code, q.code) ∉ bad) (h2 : (q.code, p.code) ∉ bad) : Swaps (fieldAct arms) p q := by
  intro e e1 e2 he1 he2
  unfold fieldAct at he1 he2 ⊢
  obtain ⟨r1, h3, rfl⟩ := except_map_ok he1
  obtain ⟨r2, h4, rfl⟩ := except_map_ok he2
  obtain ⟨r3, h5, h6⟩ := applyPair_swap hb hpq h1 h2 h3 h4
  exact ⟨{ e with fields := r3 }, by rw [h5]; rfl, by dsimp only; rw [h6]; rfl⟩

theorem FieldCode.outside {c : Int} (h : FieldCode c) : Outside c := by
  obtain ⟨_, _, h9, h⟩ := h
  exact ⟨.inr h, h9⟩

/-! ### Entities -/

/-- The same for an entity. -/
def EName.act (k : EName) (p : CodePair) (st : Mode × Entry k.decls) :
    Except DxfErr (Mode × Entry k.decls) :=
  (fieldAct (k.kind.arms st.1) p st.2).map fun e => (k.kind.next st.1 p, e)

theorem EName.step_field (k : EName) {p : CodePair} (h : FieldCode p.code)
    (st : Mode × Entry k.decls) : k.step p st = Rd.lift (k.act p st) := by
  unfold EName.step EName.act
  rw [entryApply_field _ h]
  cases fieldAct (k.kind.arms st.1) p st.2 <;> rfl

theorem fieldAct_free {ds : List Decl} (fixed : List Int) (arms : List (Arm ds)) {p : CodePair}
    (h : p.code ∉ fixed) (e : Entry ds) :
    fieldAct (freeArms fixed arms) p e = fieldAct arms p e := by
  unfold fieldAct
  rw [applyPair_free fixed arms _ h]

theorem EName.next_free (k : EName) {p : CodePair} (h : p.code ∉ k.fixed) (m : Mode) :
    k.kind.next m p = m := by
  have h3 : ∀ m, p.code ∉ [(70 : Int), 100, 280] → Ent.attributeNext m p = m := by
    intro m h
    simp only [List.mem_cons, List.not_mem_nil, or_false, not_or] at h
    unfold Ent.attributeNext
    rw [if_neg h.2.1, if_neg h.2.2, if_neg h.1]
  cases k <;> first
    | rfl
    | exact h3 m h
    | skip
  case mText =>
    change p.code ∉ [(50 : Int), 75] at h
    simp only [List.mem_cons, List.not_mem_nil, or_false, not_or] at h
    change Ent.mTextNext m p = m
    unfold Ent.mTextNext
    rw [if_neg h.2, if_neg h.1]
  case dimension =>
    change p.code ∉ [(70 : Int), 100] at h
    simp only [List.mem_cons, List.not_mem_nil, or_false, not_or] at h
    change Ent.dimensionNext m p = m
    unfold Ent.dimensionNext
    rw [if_neg fun h' => h.2 h'.2]

/-- The modes that matter. -/
def Mode.all : List Mode :=
  [false, true].flatMap fun a => (List.range 7).map fun n => ⟨a, false, n⟩

theorem EName.free_modes (k : EName) (m : Mode) : ∃ m' ∈ Mode.all,
    freeArms k.fixed (k.kind.arms m) = freeArms k.fixed (k.kind.arms m') := by
  obtain ⟨a, b, n⟩ := m
  have h0 : ∀ a, (⟨a, false, 0⟩ : Mode) ∈ Mode.all := by decide
  have h1 : ∀ n < 7, (⟨false, false, n⟩ : Mode) ∈ Mode.all := by decide
  cases k <;> first
    | exact ⟨⟨a, false, 0⟩, h0 a, rfl⟩
    | skip
  case dimension =>
    by_cases hn : n < 6
    · exact ⟨⟨false, false, n⟩, h1 n (by omega), rfl⟩
    · obtain ⟨n, rfl⟩ := Nat.exists_eq_add_of_le (Nat.le_of_not_lt hn)
      rw [Nat.add_comm]
      exact ⟨⟨false, false, 6⟩, h1 6 (by decide), rfl⟩

theorem EName.clashes_ok (k : EName) (m : Mode) :
    ArmsSwap (freeArms k.fixed (k.kind.arms m)) k.clashes := by
  have key : EName.all.all (fun k => Mode.all.all fun m =>
      (clashing (freeArms k.fixed (k.kind.arms m))).all fun x => k.clashes.contains x) = true := by
    decide +kernel
  obtain ⟨m', hm, e⟩ := k.free_modes m
  rw [e]
  have := List.all_eq_true.mp key k (by cases k <;> decide)
  have := List.all_eq_true.mp this m' hm
  refine armsSwap_of fun x hx => ?_
  simpa using List.all_eq_true.mp this x hx

theorem EName.act_swaps {k : EName} {p q : CodePair} (hp : p.code ∉ k.fixed) (hq : q.code ∉ k.fixed)
    (hpq : p.code ≠ q.code) (h1 : (p.code, q.code) ∉ k.clashes)
    (h2 : (q.code, p.code) ∉ k.clashes) : Swaps k.act p q := by
  rintro ⟨m, e⟩ ⟨m1, e1⟩ ⟨m2, e2⟩ he1 he2
  unfold EName.act at he1 he2 ⊢
  obtain ⟨f1, h3, h4⟩ := except_map_ok he1
  obtain ⟨f2, h5, h6⟩ := except_map_ok he2
  obtain ⟨rfl, rfl⟩ := Prod.mk.inj h4
  obtain ⟨rfl, rfl⟩ := Prod.mk.inj h6
  dsimp only at h3 h5 ⊢
  rw [k.next_free hp] at h5 ⊢
  rw [k.next_free hq]
  rw [← fieldAct_free k.fixed _ hp] at h3
  rw [← fieldAct_free k.fixed _ hq] at h5
  obtain ⟨e3, h7, h8⟩ := fieldAct_swaps (k.clashes_ok m) hpq h1 h2 _ _ _ h3 h5
  rw [fieldAct_free k.fixed _ hq] at h7
  rw [fieldAct_free k.fixed _ hp] at h8
  refine ⟨(m, e3), ?_, ?_⟩
  · rw [h7]
    simp only [Except.map, k.next_free hq]
  · dsimp only
    rw [h8]
    simp only [Except.map, k.next_free hp]

theorem nextEntity_order {k : EName} {ps qs : List CodePair}
    (hps : ∀ p ∈ ps, FieldCode p.code ∧ p.code ∉ k.fixed)
    (hcl : ∀ p ∈ ps, ∀ q ∈ ps, (p.code, q.code) ∉ k.clashes)
    (hr : Reordered CodePair.code ps qs) {op : CodePair} {x : Str}
    (hop : op.code = 0 ∧ op.value = .str x) (hx : EName.ofType x = some k)
    (he : x ≠ str!"ENDSEC" ∧ x ≠ str!"ENDBLK") {st1 st2 : Mode × Entry k.decls} {u z : Stream}
    (hfi : Fine false (u ++ (toStream ps ++ z)))
    (hh : Steps (onePair k) (Mode.start, Entry.dflt k.decls) (u ++ (toStream ps ++ z)) st1
      (toStream ps ++ z))
    (hh' : Steps (onePair k) st1 (toStream ps ++ z) st2 z)
    (hc : Calm (nextEntity (some (.ok op) :: (u ++ (toStream ps ++ z)))).1) :
    nextEntity (some (.ok op) :: (u ++ (toStream qs ++ z))) =
      nextEntity (some (.ok op) :: (u ++ (toStream ps ++ z))) := by
  have hlen := hr.length
  refine nextEntity_same (by simp [toStream_length, hlen]) (fun n hn => ?_) hc
  have o1 := fun n y => readEntity_open n [] (by simp) op hop.1 x
    (by unfold CodePair.assertString; rw [hop.2]) (by simp [he]) y
  simp only [toStream_nil, List.nil_append] at o1
  have e : (some (Except.ok op) :: (u ++ (toStream qs ++ z)) : Stream).length -
      (some (Except.ok op) :: (u ++ (toStream ps ++ z)) : Stream).length = 0 := by
    simp only [List.length_append, List.length_cons, toStream_length]; omega
  rw [e, Nat.add_zero, o1, o1]
  unfold entityBody
  simp only [hx]
  rw [Rd.run_bind, Rd.run_bind]
  have hs := item_order k.kind.eof (fun p st => k.step_locC (fun _ h => h) p st) (act := k.act)
    (fun p hp => ⟨(hps p hp).1.outside, (hps p hp).1.1, fun st => k.step_field (hps p hp).1 st⟩)
    (fun p hp q hq hpq => EName.act_swaps (hps p hp).2 (hps q hq).2 hpq (hcl p hp q hq)
      (hcl q hq p hp)) hr hfi hh hh'
  rw [hs]

end Dxf
