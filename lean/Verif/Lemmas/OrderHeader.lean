import Verif.Lemmas.OrderPlaces

/-! Header variables in another order. -/

namespace Dxf

/-- What a value of a variable does to the header. -/
def valueAct (x : Str × CodePair) (h : Header) : Except DxfErr Header :=
  setHeaderValue Header.vars x.1 x.2 h

/-- What a whole variable does to the header. -/
def varAct (v : Variable) (h : Header) : Except DxfErr Header :=
  foldAct valueAct h (v.values.map fun p => (v.name, p))

theorem foldAct_append {σ π : Type} {act : π → σ → Except DxfErr σ} (ps qs : List π) : ∀ (st : σ),
    foldAct act st (ps ++ qs) = foldAct act st ps >>= fun st' => foldAct act st' qs := by
  induction ps with
  | nil => exact fun st => rfl
  | cons p ps ih =>
    intro st
    rw [List.cons_append, foldAct, foldAct]
    cases act p st with
    | error e => rfl
    | ok st1 => exact ih st1

/-- The field of a variable. -/
theorem var_field {x : Str} {v : HVar Header.decls} (h : findVar Header.vars x = some v) :
    ∃ i, Header.vars[i]? = some v ∧ v.name = x ∧
      ∀ a ∈ v.arms, ∃ f, a.act = .on i f := by
  have key : (List.range Header.vars.length).all (fun i => match Header.vars[i]? with
      | none => true
      | some v => v.arms.all fun a => match a.act with
        | .on j _ => decide (j = i)
        | .custom _ _ => false) = true := by decide +kernel
  unfold findVar at h
  have hm := List.mem_of_find?_eq_some h
  have hn : v.name = x := by simpa using List.find?_some h
  obtain ⟨i, hi, hv⟩ := List.mem_iff_getElem.mp hm
  have hv' : Header.vars[i]? = some v := by rw [List.getElem?_eq_getElem hi, hv]
  refine ⟨i, hv', hn, fun a ha => ?_⟩
  have := List.all_eq_true.mp key i (List.mem_range.mpr hi)
  rw [hv'] at this
  have := List.all_eq_true.mp this a ha
  cases hact : a.act with
  | custom ts f => rw [hact] at this; cases this
  | on j f =>
    rw [hact] at this
    have hj : j = i := by simpa using this
    subst hj
    exact ⟨f, rfl⟩

theorem valueAct_swaps {x y : Str × CodePair} (hxy : x.1 ≠ y.1) : Swaps valueAct x y := by
  intro h h1 h2 e1 e2
  unfold valueAct setHeaderValue at e1 e2 ⊢
  cases hv : findVar Header.vars x.1 with
  | none =>
    rw [hv] at e1
    cases e1
    exact ⟨h2, e2, rfl⟩
  | some v =>
    cases hw : findVar Header.vars y.1 with
    | none =>
      rw [hw] at e2
      cases e2
      exact ⟨h, rfl, by rw [hv] at e1; exact e1⟩
    | some w =>
      rw [hv] at e1
      rw [hw] at e2
      dsimp only at e1 e2 ⊢
      obtain ⟨i, hi, ni, fi⟩ := var_field hv
      obtain ⟨j, hj, nj, fj⟩ := var_field hw
      have hij : i ≠ j := by
        rintro rfl
        cases hi.symm.trans hj
        exact hxy (ni.symm.trans nj)
      cases ha : findArm v.arms x.2.code with
      | none => rw [ha] at e1; cases e1
      | some a =>
        cases hb : findArm w.arms y.2.code with
        | none => rw [hb] at e2; cases e2
        | some b =>
          rw [ha] at e1
          rw [hb] at e2
          dsimp only at e1 e2 ⊢
          obtain ⟨f, ef⟩ := fi a (findArm_mem ha).1
          obtain ⟨g, eg⟩ := fj b (findArm_mem hb).1
          refine Act.apply_swap ?_ e1 e2
          rw [ef, eg]
          simp [Act.apart, hij]

theorem varAct_swaps {v w : Variable} (hvw : v.name ≠ w.name) : Swaps varAct v w := by
  intro h h1 h2 e1 e2
  unfold varAct at e1 e2 ⊢
  have e3 : foldAct valueAct h ((v.values.map fun p => (v.name, p)) ++
      w.values.map fun p => (w.name, p)) = .ok h2 := by
    rw [foldAct_append, e1]
    exact e2
  have hr : Reordered Prod.fst ((v.values.map fun p => (v.name, p)) ++
      w.values.map fun p => (w.name, p)) ((w.values.map fun p => (w.name, p)) ++
      v.values.map fun p => (v.name, p)) := by
    intro c
    rw [List.filter_append, List.filter_append]
    have none : ∀ (n : Str) (l : List CodePair), n ≠ c →
        (l.map fun p => (n, p)).filter (fun p => decide (p.1 = c)) = [] := by
      intro n l hn
      rw [List.filter_eq_nil_iff]
      intro x hx
      obtain ⟨p, _, rfl⟩ := List.mem_map.mp hx
      simpa using hn
    by_cases hc : v.name = c
    · rw [none w.name _ fun hw => hvw (hc.trans hw.symm)]
      simp
    · rw [none v.name _ hc]
      simp
  have e4 := foldAct_reordered hr (fun x _ y _ hxy => valueAct_swaps hxy) e3
  rw [foldAct_append] at e4
  exact except_bind_ok e4

/-- The values of a variable are read. -/
theorem values_run {name : Str} {l : List CodePair} :
    (∀ p ∈ l, p.code ≠ 0 ∧ p.code ≠ 9 ∧ p.code ≠ 999) → ∀ {q : CodePair}, VarEnd q.code →
    ∀ (z : Stream) (h : Header) (k : Nat), l.length < k →
    headerValues Header.vars name k h (toStream l ++ some (.ok q) :: z) =
      match foldAct valueAct h (l.map fun p => (name, p)) with
      | .ok h' => (.ok h', some (.ok q) :: z)
      | .error e => (.error e, (headerValues Header.vars name k h
          (toStream l ++ some (.ok q) :: z)).2) := by
  induction l with
  | nil =>
    intro _ q hq z h k hk
    obtain ⟨k, rfl⟩ : ∃ m, k = m + 1 := ⟨k - 1, by simp at hk; omega⟩
    change _ = (Except.ok h, _)
    unfold headerValues
    refine (Rd.bind_ok (Rd.next?_cons (by unfold VarEnd at hq; omega) z)).trans ?_
    dsimp only
    unfold VarEnd at hq
    rw [if_pos hq]
    rfl
  | cons p l ih =>
    intro hl q hq z h k hk
    obtain ⟨k, rfl⟩ : ∃ m, k = m + 1 := ⟨k - 1, by simp at hk; omega⟩
    obtain ⟨h0, h9, h999⟩ := hl p (by simp)
    have e : headerValues Header.vars name (k + 1) h (toStream (p :: l) ++ some (.ok q) :: z) =
        (Rd.lift (setHeaderValue Header.vars name p h) >>= fun r' =>
          headerValues Header.vars name k r') (toStream l ++ some (.ok q) :: z) := by
      rw [toStream_cons, List.cons_append]
      conv => lhs; unfold headerValues
      refine (Rd.bind_ok (Rd.next?_cons h999 _)).trans ?_
      dsimp only
      rw [if_neg (by omega)]
    rw [List.map_cons, foldAct]
    rw [e]
    unfold valueAct
    dsimp only
    cases hs : setHeaderValue Header.vars name p h with
    | error x => rfl
    | ok h1 =>
      change headerValues Header.vars name k h1 _ = match foldAct valueAct h1 _ with
        | .ok h' => _
        | .error e => (Except.error e, (headerValues Header.vars name k h1 _).2)
      exact ih (fun p hp => hl p (by simp [hp])) hq z h1 k (by simpa using hk)

theorem oneVariable_run {v : Variable} (hv : v.Proper) {q : CodePair} (hq : VarEnd q.code)
    {z : Stream} {h h' : Header} :
    oneVariable h (toStream v.pairs ++ some (.ok q) :: z) = (.ok h', some (.ok q) :: z) ↔
      varAct v h = .ok h' := by
  obtain ⟨h1, h2, h3⟩ := hv
  have e : oneVariable h (toStream v.pairs ++ some (.ok q) :: z) =
      Rd.withFuel (fun k => headerValues Header.vars v.name k h)
        (toStream v.values ++ some (.ok q) :: z) := by
    unfold Variable.pairs
    rw [toStream_cons, List.cons_append]
    unfold oneVariable
    refine (Rd.bind_ok (Rd.next_cons (by omega) _)).trans ?_
    rw [if_pos h1]
    exact Rd.bind_ok (m := Rd.lift v.mark.assertString) (a := v.name) (s := _) (s' := _)
      (by unfold CodePair.assertString; rw [h2]; rfl)
  rw [e, Rd.run_withFuel, values_run h3 hq z h _ (by simp [toStream_length]; omega)]
  unfold varAct
  cases foldAct valueAct h (v.values.map fun p => (v.name, p)) with
  | error x =>
    refine ⟨fun h => ?_, fun h => by cases h⟩
    have := (Prod.mk.inj h).1
    cases this
  | ok y => exact ⟨fun h => (Prod.mk.inj h).1, fun h => by cases h; rfl⟩

/-- What is read after a variable begins with a name or is the rest. -/
theorem variables_head {vs : List Variable} (hvs : ∀ v ∈ vs, v.Proper) {q : CodePair}
    (hq : VarEnd q.code) (z : Stream) : ∃ p y, VarEnd p.code ∧
      toStream (vs.flatMap Variable.pairs) ++ some (.ok q) :: z = some (.ok p) :: y := by
  cases vs with
  | nil => exact ⟨q, z, hq, rfl⟩
  | cons v vs =>
    refine ⟨v.mark, toStream (v.values ++ vs.flatMap Variable.pairs) ++ some (.ok q) :: z,
      .inr (hvs v (by simp)).1, ?_⟩
    rw [List.flatMap_cons]
    unfold Variable.pairs
    rw [List.cons_append, toStream_cons, List.cons_append]

theorem steps_variables {vs : List Variable} : (∀ v ∈ vs, v.Proper) → ∀ {q : CodePair},
    VarEnd q.code → ∀ {z : Stream} {h h' : Header},
    Fine false (toStream (vs.flatMap Variable.pairs) ++ some (.ok q) :: z) →
    Steps oneVariable h (toStream (vs.flatMap Variable.pairs) ++ some (.ok q) :: z) h'
      (some (.ok q) :: z) → foldAct varAct h vs = .ok h' := by
  induction vs with
  | nil =>
    intro _ q hq z h h' hfi hs
    rw [List.flatMap_nil, toStream_nil, List.nil_append] at hs hfi
    cases hs with
    | here => rfl
    | next h1 h2 =>
      obtain ⟨h3, h4⟩ := oneVariable_passes.less _ _ _ _ hfi h1
      have := (Steps.suffix oneVariable_passes h2 (hfi.suffix h3)).length_le
      omega
  | cons v vs ih =>
    intro hvs q hq z h h' hfi hs
    rw [List.flatMap_cons, toStream_append, List.append_assoc] at hs hfi
    have hvs' : ∀ v ∈ vs, v.Proper := fun w hw => hvs w (by simp [hw])
    have hz : ∃ y, y = toStream v.pairs ++ (toStream (vs.flatMap Variable.pairs) ++
        some (.ok q) :: z) := ⟨_, rfl⟩
    obtain ⟨p, y, hp, hy⟩ := variables_head hvs' hq z
    generalize hx : toStream v.pairs ++ (toStream (vs.flatMap Variable.pairs) ++
        some (.ok q) :: z) = x at hs
    cases hs with
    | here =>
      have := congrArg List.length hx
      simp only [List.length_append, List.length_cons, toStream_length, Variable.pairs] at this
      omega
    | next h1 h2 =>
      subst hx
      rw [hy] at h1
      have hv := hvs v (by simp)
      cases hact : varAct v h with
      | ok h3 =>
        have h4 := (oneVariable_run hv hp (z := y) (h := h)).mpr hact
        rw [h4] at h1
        obtain ⟨e1, e2⟩ := Prod.mk.inj h1
        cases e1
        rw [foldAct_cons hact]
        rw [← e2, ← hy] at h2
        exact ih hvs' hq (hfi.suffix (List.suffix_append _ _)) h2
      | error e =>
        exfalso
        obtain ⟨k1, k2, k3⟩ := hv
        have h5 : oneVariable h (toStream v.pairs ++ some (.ok p) :: y) =
            Rd.withFuel (fun k => headerValues Header.vars v.name k h)
              (toStream v.values ++ some (.ok p) :: y) := by
          unfold Variable.pairs
          rw [toStream_cons, List.cons_append]
          unfold oneVariable
          refine (Rd.bind_ok (Rd.next_cons (by omega) _)).trans ?_
          rw [if_pos k1]
          exact Rd.bind_ok (m := Rd.lift v.mark.assertString) (a := v.name) (s := _) (s' := _)
            (by unfold CodePair.assertString; rw [k2]; rfl)
        rw [h5, Rd.run_withFuel, values_run k3 hp y h _ (by simp [toStream_length]; omega)] at h1
        unfold varAct at hact
        rw [hact] at h1
        cases (Prod.mk.inj h1).1

theorem variables_loop {vs : List Variable} : (∀ v ∈ vs, v.Proper) → ∀ {q : CodePair},
    VarEnd q.code → ∀ {z : Stream} {h h' : Header}, foldAct varAct h vs = .ok h' → ∀ k,
    headerLoop Header.vars (k + vs.length) h
      (toStream (vs.flatMap Variable.pairs) ++ some (.ok q) :: z) =
      headerLoop Header.vars k h' (some (.ok q) :: z) := by
  induction vs with
  | nil =>
    intro _ q hq z h h' hf k
    cases hf
    rfl
  | cons v vs ih =>
    intro hvs q hq z h h' hf k
    obtain ⟨h1, e1, e2⟩ := except_bind_ok hf
    have hvs' : ∀ v ∈ vs, v.Proper := fun w hw => hvs w (by simp [hw])
    obtain ⟨p, y, hp, hy⟩ := variables_head hvs' hq z
    have h4 := (oneVariable_run (hvs v (by simp)) hp (z := y) (h := h)).mpr e1
    rw [← hy] at h4
    rw [List.flatMap_cons, toStream_append, List.append_assoc, List.length_cons, ← Nat.add_assoc,
      oneVariable_loop _ _ _ _ _ h4]
    exact ih hvs' hq e2 k

theorem flatMap_length {vs ws : List Variable} (h : Reordered Variable.name vs ws) :
    (ws.flatMap Variable.pairs).length = (vs.flatMap Variable.pairs).length ∧
      vs.length = ws.length := by
  refine ⟨?_, h.length.symm⟩
  induction vs generalizing ws with
  | nil =>
    have := h.length
    rw [List.length_nil] at this
    rw [List.eq_nil_of_length_eq_zero this]
  | cons v vs ih =>
    obtain ⟨l1, l2, rfl, _, h2⟩ := reordered_split h
    have := ih h2
    simp only [List.flatMap_append, List.flatMap_cons, List.length_append] at this ⊢
    omega

/-- Variables in another order. -/
theorem header_order {vs ws : List Variable} (hvs : ∀ v ∈ vs, v.Proper)
    (hr : Reordered Variable.name vs ws) {q : CodePair} (hq : VarEnd q.code) {u z : Stream}
    {h h1 h2 : Header}
    (hfi : Fine false (u ++ (toStream (vs.flatMap Variable.pairs) ++ some (.ok q) :: z)))
    (hh : Steps oneVariable h (u ++ (toStream (vs.flatMap Variable.pairs) ++ some (.ok q) :: z)) h1
      (toStream (vs.flatMap Variable.pairs) ++ some (.ok q) :: z))
    (hh' : Steps oneVariable h1 (toStream (vs.flatMap Variable.pairs) ++ some (.ok q) :: z) h2
      (some (.ok q) :: z)) :
    Same (Header.read h) (u ++ (toStream (vs.flatMap Variable.pairs) ++ some (.ok q) :: z))
      (u ++ (toStream (ws.flatMap Variable.pairs) ++ some (.ok q) :: z)) := by
  have hws : ∀ w ∈ ws, w.Proper := fun w hw => hvs w (hr.mem.mp hw)
  have f1 := steps_variables hvs hq (hfi.suffix (List.suffix_append _ _)) hh'
  have f2 := foldAct_reordered hr (fun v _ w _ hvw => varAct_swaps hvw) f1
  have l1 := variables_loop hvs hq (z := z) f1
  have l2 := variables_loop hws hq (z := z) f2
  obtain ⟨hlen, hlen'⟩ := flatMap_length hr
  have hl : (toStream (ws.flatMap Variable.pairs) ++ some (.ok q) :: z).length =
      (toStream (vs.flatMap Variable.pairs) ++ some (.ok q) :: z).length := by
    simp only [List.length_append, toStream_length]; omega
  have hge : vs.length ≤ (vs.flatMap Variable.pairs).length := by
    clear hvs hr hfi hh hh' hws f1 f2 l1 l2 hlen hlen' hl
    induction vs with
    | nil => simp
    | cons v vs ih =>
      simp only [List.flatMap_cons, List.length_append, List.length_cons, Variable.pairs]
      omega
  obtain ⟨p, y, hp, hy⟩ := variables_head hvs hq z
  obtain ⟨p', y', hp', hy'⟩ := variables_head hws hq z
  have hyl : y.length = y'.length := by
    rw [hy, hy'] at hl
    simp only [List.length_cons] at hl
    omega
  have hyv : y.length = (vs.flatMap Variable.pairs).length + z.length := by
    have := congrArg List.length hy
    simp only [List.length_append, List.length_cons, toStream_length] at this
    omega
  rw [hy] at hh hfi l1
  rw [hy'] at l2
  rw [hy, hy']
  obtain ⟨_, n, hn, k1, k2⟩ := Steps.loop oneVariable_passes (f := headerLoop Header.vars)
    oneVariable_loop (q := p) (q' := p') (z' := y') hp hp' (by omega) hh hfi
  have e : Header.read h (u ++ some (.ok p) :: y) = Header.read h (u ++ some (.ok p') :: y') := by
    unfold Header.read
    rw [Rd.run_withFuel, Rd.run_withFuel]
    have e1 : (u ++ some (.ok p) :: y).length + 1 =
        (u.length + y.length + 2 - n - vs.length) + vs.length + n := by
      simp only [List.length_append, List.length_cons]; omega
    have e2 : (u ++ some (.ok p') :: y').length + 1 =
        (u.length + y.length + 2 - n - vs.length) + ws.length + n := by
      simp only [List.length_append, List.length_cons]; omega
    rw [e1, e2, k1, k2, l1, l2]
  intro hc
  rw [← e]
  exact .refl

end Dxf
