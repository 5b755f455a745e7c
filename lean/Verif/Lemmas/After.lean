import Verif.Spec.After
import Verif.Lemmas.InsertFile
import Verif.Lemmas.Bytes
import Verif.Lemmas.Until

/-! Files with something after the mark at their end. -/

namespace Dxf

variable {Img : Type}

theorem CodePair.IsEof.not_comment {p : CodePair} (h : p.IsEof) : p.code ≠ 999 := by
  have := h.1
  omega

/-- Reading one pair of a stream that ends with a mark. -/
theorem next?_marked {e : CodePair} (he : e.code ≠ 999) (u : Stream) : ∀ {x : Option CodePair}
    {t : Stream}, Rd.next? (u ++ [some (.ok e)]) = (.ok x, t) →
    (x = some e ∧ t = [] ∧ ∀ r, Rd.next? (u ++ some (.ok e) :: r) = (.ok (some e), r)) ∨
    ∃ v, t = v ++ [some (.ok e)] ∧ ∀ r, Rd.next? (u ++ some (.ok e) :: r) =
      (.ok x, v ++ some (.ok e) :: r) := by
  induction u with
  | nil =>
    intro x t h
    rw [List.nil_append, Rd.next?_cons he] at h
    cases h
    exact .inl ⟨rfl, rfl, fun r => by rw [List.nil_append, Rd.next?_cons he]⟩
  | cons i u ih =>
    intro x t h
    have key : ∀ r, Rd.next? ((i :: u) ++ r) = if isComment i then Rd.next? (u ++ r) else
        match i with
        | none => (.ok none, u ++ r)
        | some (.ok p) => (.ok (some p), u ++ r)
        | some (.error e) => (.error e, u ++ r) := by
      intro r
      unfold Rd.next?
      rw [List.cons_append, Stream.next]
      by_cases hi : isComment i
      · rw [if_pos hi, if_pos hi]
      · rw [if_neg hi, if_neg hi]
        rcases i with _ | (e | p) <;> rfl
    rw [key] at h
    by_cases hi : isComment i
    · rw [if_pos hi] at h
      rcases ih h with ⟨h1, h2, h3⟩ | ⟨v, h1, h2⟩
      · exact .inl ⟨h1, h2, fun r => by rw [key, if_pos hi]; exact h3 r⟩
      · exact .inr ⟨v, h1, fun r => by rw [key, if_pos hi]; exact h2 r⟩
    · rw [if_neg hi] at h
      rcases i with _ | (e' | p)
      · cases h
        exact .inr ⟨u, rfl, fun r => by rw [key, if_neg hi]⟩
      · cases h
      · cases h
        exact .inr ⟨u, rfl, fun r => by rw [key, if_neg hi]⟩

namespace Drawing

variable {Img : Type}

/-- A mark that is not the last item of a stream has something after it. -/
theorem before_eof {e p : CodePair} (he : e.IsEof) (hp : p.value ≠ .str str!"EOF") {u t : Stream}
    (h : some (.ok p) :: t <:+ u ++ [some (.ok e)]) : ∃ v, t = v ++ [some (.ok e)] := by
  obtain ⟨k, hk⟩ := h
  rcases List.eq_nil_or_concat t with rfl | ⟨v, x, rfl⟩
  · have := List.append_inj_right' hk (by simp)
    cases this
    exact absurd he.2 hp
  · rw [show k ++ some (.ok p) :: v.concat x = (k ++ some (.ok p) :: v) ++ [x] by simp] at hk
    have := List.append_inj_right' hk (by simp)
    cases this
    exact ⟨v, by simp⟩

theorem before_code {e p : CodePair} (he : e.IsEof) (hp : p.code ≠ 0) {u t : Stream}
    (h : some (.ok p) :: t <:+ u ++ [some (.ok e)]) : ∃ v, t = v ++ [some (.ok e)] := by
  obtain ⟨k, hk⟩ := h
  rcases List.eq_nil_or_concat t with rfl | ⟨v, x, rfl⟩
  · have := List.append_inj_right' hk (by simp)
    cases this
    exact absurd he.1 hp
  · rw [show k ++ some (.ok p) :: v.concat x = (k ++ some (.ok p) :: v) ++ [x] by simp] at hk
    have := List.append_inj_right' hk (by simp)
    cases this
    exact ⟨v, by simp⟩

/-- The sections of a file that ends with a mark. -/
theorem readSections_after (codec : ImageCodec Img) (h0 : Header) {e : CodePair} (he : e.IsEof)
    (fuel : Nat) : ∀ (u : Stream) (d d' : Drawing Img) (t : Stream),
      Fine false (u ++ [some (.ok e)]) →
      readSections codec h0 fuel d (u ++ [some (.ok e)]) = (.ok d', t) →
      ∃ v, t = v ++ [some (.ok e)] ∧ ∀ r k, readSections codec h0 (fuel + k) d
        (u ++ some (.ok e) :: r) = (.ok d', v ++ some (.ok e) :: r) := by
  induction fuel with
  | zero => intro _ _ _ _ _ h; cases h
  | succ fuel ih =>
    intro u d d' t hf h
    rcases readSections_inv codec h0 h with ⟨h1, rfl⟩ | ⟨p, t1, h1, hp, hv, rfl, rfl⟩ |
      ⟨p, q, name, t1, t2, d1, t3, t4, h1, hp, hv, h2, hq, hname, h3, h4, h5⟩
    · rcases next?_marked he.not_comment u h1 with ⟨h2, _, _⟩ | ⟨v, h2, h3⟩
      · cases h2
      · refine ⟨v, h2, fun r k => ?_⟩
        rw [show fuel + 1 + k = (fuel + k) + 1 by omega]
        unfold readSections
        exact (Rd.bind_ok (h3 r)).trans rfl
    · have done : ∀ r k s, Rd.next? (u ++ some (.ok e) :: r) = (.ok (some p), s) →
          readSections codec h0 (fuel + 1 + k) d' (u ++ some (.ok e) :: r) =
            (.ok d', some (.ok p) :: s) := by
        intro r k s hs
        rw [show fuel + 1 + k = (fuel + k) + 1 by omega]
        unfold readSections
        refine (Rd.bind_ok hs).trans ?_
        dsimp only
        rw [if_pos hp]
        refine (Rd.bind_ok (m := Rd.lift p.assertString) (a := str!"EOF") (s := _) (s' := _)
          (by unfold CodePair.assertString; rw [hv]; rfl)).trans ?_
        rw [if_pos rfl]
        rfl
      rcases next?_marked he.not_comment u h1 with ⟨h2, rfl, h3⟩ | ⟨v, rfl, h3⟩
      · cases h2
        exact ⟨[], rfl, fun r k => done r k _ (h3 r)⟩
      · exact ⟨some (.ok p) :: v, rfl, fun r k => done r k _ (h3 r)⟩
    · have one : oneSection codec h0 d (u ++ [some (.ok e)]) = (.ok d1, t4) := by
        obtain ⟨c, hc, e1, _⟩ := Rd.next?_ok h1
        obtain ⟨c', hc', e2, _⟩ := Rd.next_ok h2
        rw [e1, e2]
        refine (oneSection_open codec h0 d c c' hc hc' p q name ⟨hp, hv⟩ ⟨hq, hname⟩ t2).trans ?_
        unfold closed
        exact (Rd.bind_ok h3).trans ((Rd.bind_ok h4).trans rfl)
      obtain ⟨m, hm, hmv, hsuf⟩ := section_suffix codec h0 hf h1 h2 h3 h4
      obtain ⟨v, rfl⟩ := before_eof he (by rw [hmv]; decide) hsuf
      have hf' : Fine false (v ++ [some (.ok e)]) := hf.suffix ((List.suffix_cons _ _).trans hsuf)
      obtain ⟨w, rfl, hw⟩ := ih v d1 d' t hf' h5
      refine ⟨w, rfl, fun r k => ?_⟩
      have := (oneSection_passes codec h0).pass d d1 u v e [] e r hf trivial trivial (by simp) one
      rw [show fuel + 1 + k = (fuel + k) + 1 by omega, oneSection_loop codec h0 _ _ _ _ _ this]
      exact hw r k

/-- A stream that ends with a mark is loaded the same with anything after the mark. -/
theorem load_after (codec : ImageCodec Img) (h0 : Header) (order : List Str) {e : CodePair}
    (he : e.IsEof) {u : Stream} {d : Drawing Img} (hf : Fine false (u ++ [some (.ok e)]))
    (h : (load codec h0 order (u ++ [some (.ok e)])).1 = .ok d) (r : Stream) :
    (load codec h0 order (u ++ some (.ok e) :: r)).1 = .ok d := by
  obtain ⟨d0, d1, t, t', h1, h2, h3⟩ := load_inv h
  obtain ⟨v, rfl, h4⟩ := readSections_after codec h0 he _ u d0.clear d1 t hf h2
  have h5 : (finish d1 (v ++ some (.ok e) :: r)).1 = .ok d := by
    unfold finish at h3 ⊢
    obtain ⟨x, s, h6, h7⟩ := Rd.bind_inv h3
    have step : ∀ s', Rd.next? (v ++ some (.ok e) :: r) = (.ok x, s') →
        (finish d1 (v ++ some (.ok e) :: r)).1 = .ok d := by
      intro s' hs
      unfold finish
      rw [Rd.run_bind, hs]
      cases x with
      | none => cases h7; rfl
      | some p =>
        dsimp only at h7 ⊢
        split at h7
        · rename_i hp
          rw [if_pos hp]
          cases h7
          rfl
        · cases h7
    rcases next?_marked he.not_comment v h6 with ⟨rfl, _, h8⟩ | ⟨w, _, h8⟩
    · exact step _ (h8 r)
    · exact step _ (h8 r)
  have h6 := h4 r r.length
  unfold load
  rw [Rd.run_bind, show Rd.lift (new h0 order) (u ++ some (Except.ok e) :: r) =
    (.ok d0, u ++ some (.ok e) :: r) by unfold Rd.lift; rw [h1]]
  dsimp only
  rw [Rd.run_bind, Rd.run_withFuel]
  rw [show (u ++ some (Except.ok (ε := DxfErr) e) :: r).length + 1 =
    (u ++ [some (Except.ok (ε := DxfErr) e)]).length + 1 + r.length by
    simp; omega, h6]
  exact h5

end Drawing

/-! ### The change of the encoding -/

theorem headerValuesUntil_mono (name : Str) (r : Header) :
    Mono fun k => headerValuesUntil Header.vars Header.switches name k r := by
  intro k
  induction k generalizing r with
  | zero => exact Below.out
  | succ k ih =>
    dsimp only at ih ⊢
    conv => lhs; unfold headerValuesUntil
    conv => rhs; unfold headerValuesUntil
    refine .bind .rfl fun x => ?_
    cases x with
    | none => exact .rfl
    | some p =>
      exact .ite .rfl (.bind .rfl fun r' => .ite .rfl (ih r'))

theorem headerValuesUntil_loc (name : Str) (fuel : Nat) : ∀ r,
    Loc (headerValuesUntil Header.vars Header.switches name fuel r) := by
  induction fuel with
  | zero => exact fun _ => .fail
  | succ fuel ih =>
    intro r
    unfold headerValuesUntil
    exact .next? .pure fun p => .ite (fun _ => .bindBack .pure) fun _ =>
      .bindLift fun _ => .drop (.ite (fun _ => .pure) fun _ => ih _)

theorem headerLoopUntil_mono (r : Header) :
    Mono fun k => headerLoopUntil Header.vars Header.switches k r := by
  intro k
  induction k generalizing r with
  | zero => exact Below.out
  | succ k ih =>
    dsimp only at ih ⊢
    conv => lhs; unfold headerLoopUntil
    conv => rhs; unfold headerLoopUntil
    refine .bind .rfl fun x => ?_
    cases x with
    | none => exact .rfl
    | some p =>
      refine .ite .rfl (.ite (.bind .rfl fun n => .bind .rfl fun r' => ?_) .rfl)
      cases r' with
      | none => exact .rfl
      | some r' => exact ih r'

theorem headerLoopUntil_loc (fuel : Nat) : ∀ r,
    Loc (headerLoopUntil Header.vars Header.switches fuel r) := by
  induction fuel with
  | zero => exact fun _ => .fail
  | succ fuel ih =>
    intro r
    unfold headerLoopUntil
    refine .next? .pure fun p => .ite (fun _ => .bindBack .pure) fun _ => .ite (fun _ =>
      .bindLift fun _ => .bind (.withFuel (fun _ => headerValuesUntil_loc _ _ _)
        (headerValuesUntil_mono _ _)) fun x => ?_) fun _ => .fail
    cases x with
    | none => exact .pure
    | some r' => exact ih r'

theorem readUntil_loc (h0 : Header) : Loc (Header.readUntil h0) :=
  .withFuel (fun _ => headerLoopUntil_loc _ _) (headerLoopUntil_mono _)

/-- Before the place where the encoding changes there is a pair that is no mark. -/
theorem headerValuesUntil_none {name : Str} (fuel : Nat) : ∀ {r : Header} {s t : Stream},
    headerValuesUntil Header.vars Header.switches name fuel r s = (.ok none, t) →
      ∃ p : CodePair, p.code ≠ 0 ∧ some (.ok p) :: t <:+ s := by
  induction fuel with
  | zero => intro r s t h; cases h
  | succ fuel ih =>
    intro r s t h
    unfold headerValuesUntil at h
    obtain ⟨x, s1, h1, h2⟩ := Rd.bind_inv h
    cases x with
    | none => cases h2
    | some p =>
      obtain ⟨c, hc, rfl, _⟩ := Rd.next?_ok h1
      dsimp only at h2
      by_cases hp : p.code = 0 ∨ p.code = 9
      · rw [if_pos hp] at h2; cases h2
      rw [if_neg hp] at h2
      obtain ⟨r', s2, h3, h4⟩ := Rd.bind_inv h2
      unfold Rd.lift at h3
      obtain ⟨_, rfl⟩ := Prod.mk.inj h3
      split at h4
      · cases h4
        exact ⟨p, by omega, List.suffix_append _ _⟩
      · obtain ⟨q, hq, hs⟩ := ih h4
        exact ⟨q, hq, hs.trans ((List.suffix_cons _ _).trans (List.suffix_append _ _))⟩

theorem headerLoopUntil_none (fuel : Nat) : ∀ {r : Header} {s t : Stream}, Fine false s →
    headerLoopUntil Header.vars Header.switches fuel r s = (.ok none, t) →
      ∃ p : CodePair, p.code ≠ 0 ∧ some (.ok p) :: t <:+ s := by
  induction fuel with
  | zero => intro r s t _ h; cases h
  | succ fuel ih =>
    intro r s t hf h
    unfold headerLoopUntil at h
    obtain ⟨x, s1, h1, h2⟩ := Rd.bind_inv h
    cases x with
    | none => cases h2
    | some p =>
      obtain ⟨c, hc, rfl, _⟩ := Rd.next?_ok h1
      dsimp only at h2
      have hs1 : s1 <:+ toStream c ++ some (.ok p) :: s1 :=
        (List.suffix_cons _ _).trans (List.suffix_append _ _)
      by_cases hp : p.code = 0
      · rw [if_pos hp] at h2; cases h2
      rw [if_neg hp] at h2
      by_cases hp9 : p.code = 9
      swap
      · rw [if_neg hp9] at h2; cases h2
      rw [if_pos hp9] at h2
      obtain ⟨n, s2, h3, h4⟩ := Rd.bind_inv h2
      unfold Rd.lift at h3
      obtain ⟨_, rfl⟩ := Prod.mk.inj h3
      obtain ⟨x, s3, h5, h6⟩ := Rd.bind_inv h4
      have hl := (Loc.withFuel (fun k => headerValuesUntil_loc n k r)
        (headerValuesUntil_mono n r)).suffix s1 (hf.suffix hs1)
      rw [h5] at hl
      cases x with
      | none =>
        cases h6
        rw [Rd.run_withFuel] at h5
        obtain ⟨q, hq, hs⟩ := headerValuesUntil_none _ h5
        exact ⟨q, hq, hs.trans hs1⟩
      | some r' =>
        obtain ⟨q, hq, hs⟩ := ih (hf.suffix (hl.trans hs1)) h6
        exact ⟨q, hq, hs.trans (hl.trans hs1)⟩

theorem headerValuesUntil_locC (name : Str) (fuel : Nat) : ∀ r,
    LocC (· = 0) (headerValuesUntil Header.vars Header.switches name fuel r) := by
  induction fuel with
  | zero => exact fun _ => .fail
  | succ fuel ih =>
    intro r
    unfold headerValuesUntil
    refine .next? (by decide) .pure (fun p => .ite (fun _ => .back) fun _ =>
      .bindLift fun _ => .drop (.ite (fun _ => .pure) fun _ => ih _)) ?_
    intro p p' hp hp'
    dsimp only
    rw [if_pos (.inl hp), if_pos (.inl hp')]
    exact .back

theorem headerLoopUntil_locC (fuel : Nat) : ∀ r,
    LocC (· = 0) (headerLoopUntil Header.vars Header.switches fuel r) := by
  induction fuel with
  | zero => exact fun _ => .fail
  | succ fuel ih =>
    intro r
    unfold headerLoopUntil
    refine .next? (by decide) .pure (fun p => .ite (fun _ => .back) fun _ => .ite (fun _ =>
      .bindLift fun _ => .drop (.bind (.withFuel (fun _ => headerValuesUntil_locC _ _ _)
        (headerValuesUntil_mono _ _)) fun x => ?_)) fun _ => .drop .fail) ?_
    · cases x with
      | none => exact .pure
      | some r' => exact ih r'
    · intro p p' hp hp'
      dsimp only
      rw [if_pos hp, if_pos hp']
      exact .back

theorem readUntil_locC (h0 : Header) : LocC (· = 0) (Header.readUntil h0) :=
  .withFuel (fun _ => headerLoopUntil_locC _ _) (headerLoopUntil_mono _)

namespace Drawing

theorem readSectionUntil_loc (codec : ImageCodec Img) (h0 : Header) (name : Str)
    (d : Drawing Img) : Loc (readSectionUntil codec h0 name d) := by
  unfold readSectionUntil
  exact .ite (fun _ => .bind (readUntil_loc h0) fun _ => .pure) fun _ =>
    .bind (readSection_loc codec h0 name d) fun _ => .pure

theorem readSectionUntil_none (codec : ImageCodec Img) (h0 : Header) {name : Str}
    {d : Drawing Img} {s t : Stream} (hf : Fine false s)
    (h : readSectionUntil codec h0 name d s = (.ok none, t)) :
    ∃ p : CodePair, p.code ≠ 0 ∧ some (.ok p) :: t <:+ s := by
  unfold readSectionUntil at h
  split at h
  · obtain ⟨x, s1, h1, h2⟩ := Rd.bind_inv h
    cases x with
    | none =>
      cases h2
      unfold Header.readUntil at h1
      rw [Rd.run_withFuel] at h1
      exact headerLoopUntil_none _ hf h1
    | some r => cases h2
  · obtain ⟨x, s1, h1, h2⟩ := Rd.bind_inv h
    cases h2

/-- The place where the encoding changes does not depend on what comes after a later mark. -/
theorem readSectionUntil_pass (codec : ImageCodec Img) (h0 : Header) {name : Str}
    {d : Drawing Img} {u v : Stream} {e : CodePair} (hf : Fine false (u ++ [some (.ok e)]))
    (he : e.code = 0)
    (h : readSectionUntil codec h0 name d (u ++ [some (.ok e)]) =
      (.ok none, v ++ [some (.ok e)])) (r : Stream) :
    readSectionUntil codec h0 name d (u ++ some (.ok e) :: r) =
      (.ok none, v ++ some (.ok e) :: r) := by
  unfold readSectionUntil at h ⊢
  split at h
  · rename_i hn
    rw [if_pos hn]
    obtain ⟨x, s1, h1, h2⟩ := Rd.bind_inv h
    cases x with
    | none =>
      cases h2
      exact (Rd.bind_ok ((readUntil_locC h0).pass hf he he (by simp) h1)).trans rfl
    | some r => cases h2
  · obtain ⟨x, s1, h1, h2⟩ := Rd.bind_inv h
    cases h2

theorem readSectionUntil_ok (codec : ImageCodec Img) (h0 : Header) {name : Str}
    {d d' : Drawing Img} {s t : Stream} (h : readSection codec h0 name d s = (.ok d', t)) :
    readSectionUntil codec h0 name d s = (.ok (some d'), t) ∨
      ∃ t', readSectionUntil codec h0 name d s = (.ok none, t') := by
  unfold readSectionUntil
  by_cases hn : name = str!"HEADER"
  · rw [if_pos hn]
    unfold readSection at h
    rw [if_pos hn] at h
    obtain ⟨r, s1, h1, h2⟩ := Rd.bind_inv h
    cases h2
    unfold Header.read at h1
    rw [Rd.run_withFuel] at h1
    rcases headerLoopUntil_ok Header.vars Header.switches _ _ _ _ _ h1 with h3 | ⟨t', h3⟩
    · rw [Rd.bind_ok (m := Header.readUntil h0) h3]
      exact .inl rfl
    · rw [Rd.bind_ok (m := Header.readUntil h0) h3]
      exact .inr ⟨_, rfl⟩
  · rw [if_neg hn, Rd.bind_ok h]
    exact .inl rfl

/-- The steps of `readSectionsUntil` for a section. -/
theorem readSectionsUntil_section (codec : ImageCodec Img) (h0 : Header) (k : Nat)
    (d : Drawing Img) {p q : CodePair} {name : Str} {s t1 t2 : Stream}
    (h1 : Rd.next? s = (.ok (some p), t1)) (hp : p.code = 0)
    (hv : p.value = .str str!"SECTION") (h2 : Rd.next t1 = (.ok q, t2)) (hq : q.code = 2)
    (hname : q.value = .str name) : readSectionsUntil codec h0 (k + 1) d s =
      (do match ← readSectionUntil codec h0 name d with
          | none => return true
          | some d => do
            expect str!"ENDSEC"
            readSectionsUntil codec h0 k d : Rd Bool) t2 := by
  conv => lhs; unfold readSectionsUntil
  refine (Rd.bind_ok h1).trans ?_
  dsimp only
  rw [if_pos hp]
  refine (Rd.bind_ok (m := Rd.lift p.assertString) (a := str!"SECTION") (s := _) (s' := _)
    (by unfold CodePair.assertString; rw [hv]; rfl)).trans ?_
  rw [if_neg (by decide), if_pos rfl]
  refine (Rd.bind_ok h2).trans ?_
  rcases q with ⟨cc, value, o⟩
  dsimp only at hq hname
  subst hname
  change (if cc = 2 then _ else Rd.fail _ : Rd Bool) t2 = _
  rw [if_pos hq]
  rfl

/-- What is read up to the change of the encoding. -/
theorem readSectionsUntil_inv (codec : ImageCodec Img) (h0 : Header) {fuel : Nat}
    {d : Drawing Img} {b : Bool} {s s' : Stream}
    (h : readSectionsUntil codec h0 (fuel + 1) d s = (.ok b, s')) :
    (Rd.next? s = (.ok none, s') ∧ b = false) ∨
    (∃ p, Rd.next? s = (.ok (some p), s') ∧ p.code = 0 ∧ p.value = .str str!"EOF" ∧ b = false) ∨
    ∃ p q name t1 t2, Rd.next? s = (.ok (some p), t1) ∧ p.code = 0 ∧
      p.value = .str str!"SECTION" ∧ Rd.next t1 = (.ok q, t2) ∧ q.code = 2 ∧ q.value = .str name ∧
      ((readSectionUntil codec h0 name d t2 = (.ok none, s') ∧ b = true) ∨
        ∃ d1 t3 t4, readSectionUntil codec h0 name d t2 = (.ok (some d1), t3) ∧
          expect str!"ENDSEC" t3 = (.ok (), t4) ∧
          readSectionsUntil codec h0 fuel d1 t4 = (.ok b, s')) := by
  unfold readSectionsUntil at h
  obtain ⟨a, t, h1, h2⟩ := Rd.bind_inv h
  cases a with
  | none => cases h2; exact .inl ⟨h1, rfl⟩
  | some p =>
    by_cases hp : p.code = 0
    swap
    · dsimp only at h2; rw [if_neg hp] at h2; cases h2
    dsimp only at h2
    rw [if_pos hp] at h2
    obtain ⟨s1, t', h3, h4⟩ := Rd.bind_inv h2
    have hv : p.value = .str s1 ∧ t' = t := by
      unfold Rd.lift CodePair.assertString at h3
      split at h3
      · cases h3; simp_all
      · cases h3
    obtain ⟨hv, rfl⟩ := hv
    by_cases he : s1 = str!"EOF"
    · rw [if_pos he] at h4
      cases h4
      exact .inr (.inl ⟨p, h1, hp, by rw [hv, he], rfl⟩)
    rw [if_neg he] at h4
    by_cases hs : s1 = str!"SECTION"
    swap
    · rw [if_neg hs] at h4; cases h4
    rw [if_pos hs] at h4
    obtain ⟨q, t2, h5, h6⟩ := Rd.bind_inv h4
    rcases q with ⟨c, value, o⟩
    cases value
    case str name =>
      by_cases hq : c = 2
      swap
      · change (if c = 2 then _ else Rd.fail _ : Rd _) t2 = _ at h6
        rw [if_neg hq] at h6; cases h6
      change (if c = 2 then _ else Rd.fail _ : Rd _) t2 = _ at h6
      rw [if_pos hq] at h6
      obtain ⟨x, t3, h7, h8⟩ := Rd.bind_inv h6
      refine .inr (.inr ⟨p, _, name, t', t2, h1, hp, by rw [hv, hs], h5, hq, rfl, ?_⟩)
      cases x with
      | none => cases h8; exact .inl ⟨h7, rfl⟩
      | some d1 =>
        obtain ⟨_, t4, h9, h10⟩ := Rd.bind_inv h8
        exact .inr ⟨d1, t3, t4, h7, h9, h10⟩
    all_goals cases h6

/-- The change of the encoding takes place at the same pair whatever comes after the mark. -/
theorem readSectionsUntil_after (codec : ImageCodec Img) (h0 : Header) {e : CodePair}
    (he : e.IsEof) (fuel : Nat) : ∀ (u : Stream) (d : Drawing Img) (b : Bool) (t : Stream),
      Fine false (u ++ [some (.ok e)]) →
      readSectionsUntil codec h0 fuel d (u ++ [some (.ok e)]) = (.ok b, t) →
      (b = false ∧ ∀ r k, ∃ t'', readSectionsUntil codec h0 (fuel + k) d
        (u ++ some (.ok e) :: r) = (.ok false, t'')) ∨
      b = true ∧ ∃ v, t = v ++ [some (.ok e)] ∧ ∀ r k, readSectionsUntil codec h0 (fuel + k) d
        (u ++ some (.ok e) :: r) = (.ok true, v ++ some (.ok e) :: r) := by
  induction fuel with
  | zero => intro _ _ _ _ _ h; cases h
  | succ fuel ih =>
    intro u d b t hf h
    rcases readSectionsUntil_inv codec h0 h with ⟨h1, rfl⟩ | ⟨p, h1, hp, hv, rfl⟩ |
      ⟨p, q, name, t1, t2, h1, hp, hv, h2, hq, hname, h3⟩
    · have done : ∀ k s s', Rd.next? s = (.ok none, s') →
          readSectionsUntil codec h0 (k + 1) d s = (.ok false, s') := by
        intro k s s' hs
        unfold readSectionsUntil
        exact (Rd.bind_ok hs).trans rfl
      rcases next?_marked he.not_comment u h1 with ⟨h2, _, _⟩ | ⟨v, h2, h3⟩
      · cases h2
      · refine .inl ⟨rfl, fun r k => ?_⟩
        rw [show fuel + 1 + k = (fuel + k) + 1 by omega]
        exact ⟨_, done _ _ _ (h3 r)⟩
    · have done : ∀ k s s', Rd.next? s = (.ok (some p), s') →
          readSectionsUntil codec h0 (k + 1) d s = (.ok false, s') := by
        intro k s s' hs
        unfold readSectionsUntil
        refine (Rd.bind_ok hs).trans ?_
        dsimp only
        rw [if_pos hp]
        refine (Rd.bind_ok (m := Rd.lift p.assertString) (a := str!"EOF") (s := _) (s' := _)
          (by unfold CodePair.assertString; rw [hv]; rfl)).trans ?_
        rw [if_pos rfl]
        rfl
      refine .inl ⟨rfl, fun r k => ?_⟩
      rw [show fuel + 1 + k = (fuel + k) + 1 by omega]
      rcases next?_marked he.not_comment u h1 with ⟨h2, rfl, h3⟩ | ⟨v, rfl, h3⟩
      · cases h2
        exact ⟨_, done _ _ _ (h3 r)⟩
      · exact ⟨_, done _ _ _ (h3 r)⟩
    · obtain ⟨c, hc, e1, hp9⟩ := Rd.next?_ok h1
      obtain ⟨c', hc', e2, hq9⟩ := Rd.next_ok h2
      have hsuf2 : t2 <:+ u ++ [some (.ok e)] := by
        rw [e1, e2]
        exact (List.suffix_cons _ _).trans ((List.suffix_append _ _).trans
          ((List.suffix_cons _ _).trans (List.suffix_append _ _)))
      obtain ⟨w, rfl⟩ := before_code (p := q) (t := t2) he (by omega) (by
        rw [e1, e2]
        exact (List.suffix_append _ _).trans ((List.suffix_cons _ _).trans
          (List.suffix_append _ _)))
      have hfw : Fine false (w ++ [some (.ok e)]) := hf.suffix hsuf2
      have hu : u = toStream c ++ some (.ok p) :: (toStream c' ++ some (.ok q) :: w) := by
        rw [e2] at e1
        have e1' : u ++ [some (.ok e)] = (toStream c ++ some (.ok p) ::
            (toStream c' ++ some (.ok q) :: w)) ++ [some (.ok e)] := by rw [e1]; simp
        exact List.append_cancel_right e1'
      have step : ∀ r k, readSectionsUntil codec h0 (k + 1) d (u ++ some (.ok e) :: r) =
          (do match ← readSectionUntil codec h0 name d with
              | none => return true
              | some d => do
                expect str!"ENDSEC"
                readSectionsUntil codec h0 k d : Rd Bool) (w ++ some (.ok e) :: r) := by
        intro r k
        have n1 : Rd.next? (u ++ some (.ok e) :: r) =
            (.ok (some p), toStream c' ++ some (.ok q) :: (w ++ some (.ok e) :: r)) := by
          rw [hu]
          have := next?_comments c hc p hp9 (toStream c' ++ some (.ok q) :: (w ++ some (.ok e) :: r))
          simpa using this
        exact readSectionsUntil_section codec h0 k d n1 hp hv
          (next_comments c' hc' q hq9 _) hq hname
      rcases h3 with ⟨h6, rfl⟩ | ⟨d1, t3, t4, h6, h4, h5⟩
      · obtain ⟨p', hp', hs'⟩ := readSectionUntil_none codec h0 hfw h6
        obtain ⟨v', rfl⟩ := before_code he hp' hs'
        have h7 := readSectionUntil_pass codec h0 hfw he.1 h6
        refine .inr ⟨rfl, v', rfl, fun r k => ?_⟩
        rw [show fuel + 1 + k = (fuel + k) + 1 by omega, step, Rd.bind_ok (h7 r)]
        rfl
      · obtain ⟨c3, m', hc3, e4, hm'⟩ := expect_ok h4
        have hsuf3 := (readSectionUntil_loc codec h0 name d).suffix _ hfw
        rw [h6] at hsuf3
        dsimp only at hsuf3
        have hsuf4 : some (.ok m') :: t4 <:+ w ++ [some (.ok e)] := by
          refine List.IsSuffix.trans ?_ hsuf3
          rw [e4]
          exact List.suffix_append _ _
        obtain ⟨v, rfl⟩ := before_eof he (by rw [hm'.2]; decide) hsuf4
        have hf' : Fine false (v ++ [some (.ok e)]) :=
          hfw.suffix ((List.suffix_cons _ _).trans hsuf4)
        have e5 : t3 = (toStream c3 ++ some (.ok m') :: v) ++ [some (.ok e)] := by rw [e4]; simp
        have h7 : ∀ r, readSectionUntil codec h0 name d (w ++ some (.ok e) :: r) =
            (.ok (some d1), toStream c3 ++ some (.ok m') :: (v ++ some (.ok e) :: r)) := by
          intro r
          have := (readSectionUntil_loc codec h0 name d).loc w [some (.ok e)] (some (.ok e) :: r)
            (toStream c3 ++ some (.ok m') :: v) hfw (by simp) (by simp) (by simp)
            (by rw [h6]; exact Calm.ok) (by rw [h6, e5])
          rw [this, h6]
          simp
        have h8 : ∀ r, expect str!"ENDSEC" (toStream c3 ++ some (.ok m') ::
            (v ++ some (.ok e) :: r)) = (.ok (), v ++ some (.ok e) :: r) := fun r =>
          expect_run str!"ENDSEC" c3 hc3 m' hm'.1 hm'.2 (v ++ some (.ok e) :: r)
        have step' : ∀ r k, readSectionsUntil codec h0 (k + 1) d (u ++ some (.ok e) :: r) =
            readSectionsUntil codec h0 k d1 (v ++ some (.ok e) :: r) := by
          intro r k
          rw [step r k, Rd.bind_ok (h7 r)]
          exact Rd.bind_ok (h8 r)
        rcases ih v d1 b t hf' h5 with ⟨rfl, h10⟩ | ⟨rfl, v', rfl, h10⟩
        · refine .inl ⟨rfl, fun r k => ?_⟩
          rw [show fuel + 1 + k = (fuel + k) + 1 by omega, step']
          exact h10 r k
        · refine .inr ⟨rfl, v', rfl, fun r k => ?_⟩
          rw [show fuel + 1 + k = (fuel + k) + 1 by omega, step']
          exact h10 r k

/-- A file that is loaded is read up to the change of the encoding as well. -/
theorem readSectionsUntil_ok (codec : ImageCodec Img) (h0 : Header) (fuel : Nat) :
    ∀ (d d' : Drawing Img) (s t : Stream), readSections codec h0 fuel d s = (.ok d', t) →
      ∃ b t', readSectionsUntil codec h0 fuel d s = (.ok b, t') := by
  induction fuel with
  | zero => intro _ _ _ _ h; cases h
  | succ fuel ih =>
    intro d d' s t h
    rcases readSections_inv codec h0 h with ⟨h1, rfl⟩ | ⟨p, t1, h1, hp, hv, rfl, rfl⟩ |
      ⟨p, q, name, t1, t2, d1, t3, t4, h1, hp, hv, h2, hq, hname, h3, h4, h5⟩
    · refine ⟨false, t, ?_⟩
      unfold readSectionsUntil
      exact (Rd.bind_ok h1).trans rfl
    · refine ⟨false, t1, ?_⟩
      unfold readSectionsUntil
      refine (Rd.bind_ok h1).trans ?_
      dsimp only
      rw [if_pos hp]
      refine (Rd.bind_ok (m := Rd.lift p.assertString) (a := str!"EOF") (s := _) (s' := _)
        (by unfold CodePair.assertString; rw [hv]; rfl)).trans ?_
      rw [if_pos rfl]
      rfl
    · rw [readSectionsUntil_section codec h0 fuel d h1 hp hv h2 hq hname]
      rcases readSectionUntil_ok codec h0 h3 with h6 | ⟨t', h6⟩
      · rw [Rd.bind_ok h6]
        dsimp only
        rw [Rd.bind_ok h4]
        exact ih _ _ _ _ h5
      · rw [Rd.bind_ok h6]
        exact ⟨_, _, rfl⟩

end Drawing

end Dxf
