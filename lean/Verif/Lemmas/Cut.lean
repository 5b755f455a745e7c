import Verif.Lemmas.Sections
import Verif.Lemmas.Strict
import Verif.Lemmas.DrawingOps

/-! Files that are cut off and files with errors in them. -/

namespace Dxf

/-- A pair that is found in the part of a stream before a certain tail. -/
theorem suffix_before {α : Type} {x : α} {t : List α} (a z : List α) (h : x :: t <:+ a ++ z)
    (hx : x ∉ z) : ∃ a', t = a' ++ z ∧ a' <:+ a := by
  induction a with
  | nil => exact absurd (h.subset (by simp)) hx
  | cons p a ih =>
    rcases List.suffix_cons_iff.mp h with h | h
    · simp only [List.cons_append, List.cons.injEq] at h
      exact ⟨a, h.2, List.suffix_cons _ _⟩
    · obtain ⟨a', h1, h2⟩ := ih h
      exact ⟨a', h1, h2.trans (List.suffix_cons _ _)⟩

theorem next?_none {s s' : Stream} (h : Rd.next? s = (.ok none, s')) :
    ∀ it ∈ s, it.isSome → (∃ p : CodePair, it = some (.ok p) ∧ p.code = 999) ∨ none ∈ s := by
  induction s with
  | nil => simp
  | cons x r ih =>
    unfold Rd.next? at h
    rw [Stream.next] at h
    by_cases hx : isComment x
    · rw [if_pos hx] at h
      intro it hm hs
      rcases List.mem_cons.mp hm with rfl | hm
      · refine .inl ?_
        unfold isComment at hx
        split at hx
        · exact ⟨_, rfl, by simpa using hx⟩
        · simp at hx
      · rcases ih h it hm hs with h | h
        · exact .inl h
        · exact .inr (List.mem_cons_of_mem _ h)
    · rw [if_neg hx] at h
      rcases x with _ | (e | p)
      · intro _ _ _; exact .inr (by simp)
      · cases h
      · cases h

theorem next?_toStream_none {s' : Stream} {ps : List CodePair}
    (h : Rd.next? (toStream ps) = (.ok none, s')) : ∀ p ∈ ps, p.code = 999 := by
  intro p hp
  rcases next?_none h (some (.ok p)) (by simp [toStream, hp]) rfl with ⟨q, h, hq⟩ | h
  · cases h; exact hq
  · simp [toStream] at h

/-- At the end of what can be read there are only comments. -/
theorem next?_err_none {s' rest : Stream} (a : List CodePair) (e : DxfErr) :
    Rd.next? (toStream a ++ some (.error e) :: rest) ≠ (.ok none, s') := by
  induction a with
  | nil => intro h; cases h
  | cons p a ih =>
    intro h
    unfold Rd.next? at h
    rw [toStream_cons, List.cons_append, Stream.next] at h
    by_cases hp : isComment (some (.ok p))
    · rw [if_pos hp] at h; exact ih h
    · rw [if_neg hp] at h; cases h

theorem errs_toStream (a : List CodePair) (z : Stream) : errs (toStream a ++ z) = errs z := by
  induction a with
  | nil => rfl
  | cons p a ih => rw [toStream_cons, List.cons_append, errs_cons_ok, ih]

namespace Drawing

variable {Img : Type}

/-- What a file that is loaded goes through. -/
theorem load_inv {codec : ImageCodec Img} {h0 : Header} {order : List Str} {s : Stream}
    {d : Drawing Img} (h : (load codec h0 order s).1 = .ok d) :
    ∃ d0 d1 t t', new h0 order = .ok d0 ∧
      readSections codec h0 (s.length + 1) d0.clear s = (.ok d1, t) ∧ finish d1 t = (.ok d, t') := by
  rcases hl : load codec h0 order s with ⟨x, s'⟩
  rw [hl] at h
  dsimp only at h
  subst h
  obtain ⟨d0, t, h1, h2⟩ := Rd.bind_inv hl
  obtain ⟨d1, t1, h3, h4⟩ := Rd.bind_inv h2
  unfold Rd.lift at h1
  obtain ⟨h6, h5⟩ := Prod.mk.inj h1
  subst h5
  exact ⟨d0, d1, t1, s', h6, h3, h4⟩

theorem normalize_panics (d : Drawing Img) (order : List Str) :
    OnlyPanics (d.normalize order) :=
  .bind (ensureAll_panics _ _ _) fun _ => .bind (ensureAll_panics _ _ _) fun _ =>
    .bind (ensure_panics _ _ _) fun _ => .bind (ensureAll_panics _ _ _) fun _ =>
    .bind (ensure_panics _ _ _) fun _ => .bind (ensureAll_panics _ _ _) fun _ =>
    .bind (ensureAll_panics _ _ _) fun _ => .bind (ensure_panics _ _ _) fun _ =>
    .bind (ensureAll_panics _ _ _) fun _ => .ret

/-- Loading does not run out of fuel where nothing tricky is met. -/
theorem load_nice (codec : ImageCodec Img) (hc : ∀ b, Calm (codec.load b)) (h0 : Header)
    (order : List Str) (s : Stream) (hs : Fine true s) :
    (load codec h0 order s).1 ≠ .error .outOfFuel := by
  refine (Nice.bind (t := true) (n := s.length) (Nice.lift fun _ => (normalize_panics _ _).calm)
    fun d => Nice.bind (Nice.withFuel fun n => readSections_nice true codec (fun _ => hc) h0 _ _ _
      fun _ => by omega) fun d => ?_ : Nice true s.length (load codec h0 order)) s (Nat.le_refl _)
      hs |>.2 rfl
  unfold finish
  exact Nice.next? .pure fun p => NiceP.ite (fun _ => NiceP.pure) fun _ => NiceP.fail fun _ => by simp

/-- A section that was read leaves a tail of the stream. -/
theorem readSection_suffix (codec : ImageCodec Img) (h0 : Header) (name : Str) (d : Drawing Img)
    (s : Stream) (h : Fine false s) : (readSection codec h0 name d s).2 <:+ s :=
  (readSection_nice false s.length codec (by simp) h0 name (by simp) d s (Nat.le_refl _) h).1

/-- The stream after one section of a stream. -/
theorem section_suffix (codec : ImageCodec Img) (h0 : Header) {s t1 t2 t3 t4 : Stream}
    {p q : CodePair} {name : Str} {d d1 : Drawing Img} (hs : Fine false s)
    (h1 : Rd.next? s = (.ok (some p), t1)) (h2 : Rd.next t1 = (.ok q, t2))
    (h3 : readSection codec h0 name d t2 = (.ok d1, t3))
    (h4 : expect str!"ENDSEC" t3 = (.ok (), t4)) :
    ∃ e : CodePair, e.code = 0 ∧ e.value = .str str!"ENDSEC" ∧ some (.ok e) :: t4 <:+ s := by
  obtain ⟨c1, _, e1, _⟩ := Rd.next?_ok h1
  obtain ⟨c2, _, e2, _⟩ := Rd.next_ok h2
  have k2 : t2 <:+ s := by
    rw [e1, e2]
    exact (List.suffix_cons _ _).trans ((List.suffix_append _ _).trans
      ((List.suffix_cons _ _).trans (List.suffix_append _ _)))
  have k3 := readSection_suffix codec h0 name d t2 (hs.suffix k2)
  rw [h3] at k3
  obtain ⟨c3, e, _, e3, he⟩ := expect_ok h4
  refine ⟨e, he.1, he.2, ?_⟩
  refine List.IsSuffix.trans ?_ (k3.trans k2)
  rw [e3]
  exact List.suffix_append _ _

/-- Reading the sections of a file that ends inside a section fails. -/
theorem readSections_cut (codec : ImageCodec Img) (h0 : Header) (op : CodePair)
    (hop : op.code = 0) (hval : op.value = .str str!"SECTION") (b : List CodePair)
    (hb : ∀ p ∈ b, ¬ (p.code = 0 ∧ p.value = .str str!"ENDSEC")) (fuel : Nat) :
    ∀ (a : List CodePair) (d d' : Drawing Img) (s' : Stream),
      (∀ p ∈ a, ¬ (p.code = 0 ∧ p.value = .str str!"EOF")) →
      readSections codec h0 fuel d (toStream (a ++ op :: b)) ≠ (.ok d', s') := by
  induction fuel with
  | zero => intro _ _ _ _ _ h; cases h
  | succ fuel ih =>
    intro a d d' s' ha h
    rcases readSections_inv codec h0 h with ⟨h1, _⟩ | ⟨p, t, h1, hp, hv, _⟩ |
      ⟨p, q, name, t1, t2, d1, t3, t4, h1, hp, hv, h2, _, _, h3, h4, h5⟩
    · have := next?_toStream_none h1 op (by simp)
      omega
    · obtain ⟨c, hc, e1, _⟩ := Rd.next?_ok h1
      have e2 : (c.map fun q => some (Except.ok q)) ++ some (.ok p) :: t =
        (a.map fun q => some (Except.ok (ε := DxfErr) q)) ++ some (.ok op) :: toStream b := by
        have : toStream (a ++ op :: b) = (a.map fun q => some (Except.ok (ε := DxfErr) q)) ++
          some (.ok op) :: toStream b := by simp [toStream]
        rw [← this, e1]; rfl
      rcases List.append_eq_append_iff.mp e2 with ⟨x, hx, hy⟩ | ⟨x, hx, hy⟩
      · cases x with
        | nil =>
          simp only [List.nil_append, List.cons.injEq, Option.some.injEq, Except.ok.injEq] at hy
          rw [hy.1, hval] at hv
          exact absurd hv (by decide)
        | cons y x =>
          simp only [List.cons_append, List.cons.injEq] at hy
          have : some (.ok p) ∈ a.map fun q => some (Except.ok (ε := DxfErr) q) := by
            rw [hx, hy.1]; simp
          obtain ⟨q, hq, e⟩ := List.mem_map.mp this
          cases e
          exact ha p hq ⟨hp, hv⟩
      · cases x with
        | nil =>
          simp only [List.nil_append, List.cons.injEq, Option.some.injEq, Except.ok.injEq] at hy
          rw [← hy.1, hval] at hv
          exact absurd hv (by decide)
        | cons y x =>
          simp only [List.cons_append, List.cons.injEq] at hy
          have : some (.ok op) ∈ c.map fun q => some (Except.ok (ε := DxfErr) q) := by
            rw [hx, hy.1]; simp
          obtain ⟨q, hq, e⟩ := List.mem_map.mp this
          cases e
          have := hc op hq
          omega
    · obtain ⟨e, he, hv', hsuf⟩ := section_suffix codec h0 (Fine.toStream _) h1 h2 h3 h4
      have hsplit : toStream (a ++ op :: b) = toStream a ++ toStream (op :: b) := by simp [toStream]
      rw [hsplit] at hsuf
      obtain ⟨a', h6, h7⟩ := suffix_before _ _ hsuf (by
        intro hm
        obtain ⟨q, hq, e'⟩ := List.mem_map.mp hm
        cases e'
        rcases List.mem_cons.mp hq with rfl | hq
        · rw [hval] at hv'; exact absurd hv' (by decide)
        · exact hb _ hq ⟨he, hv'⟩)
      obtain ⟨k, hk⟩ := h7
      have : ∃ a'' : List CodePair, a' = toStream a'' ∧ a'' <:+ a := by
        have h8 : a' = (toStream a).drop k.length := by rw [← hk]; simp
        exact ⟨a.drop k.length, by rw [h8]; simp [toStream, List.map_drop],
          List.drop_suffix _ _⟩
      obtain ⟨a'', rfl, h9⟩ := this
      rw [h6, show toStream a'' ++ toStream (op :: b) = toStream (a'' ++ op :: b) by
        simp [toStream]] at h5
      exact ih a'' d1 d' s' (fun p hp => ha p (h9.subset hp)) h5

/-- Reading the sections of a file fails at an error in one of the strict sections. -/
theorem readSections_error (codec : ImageCodec Img) (h0 : Header) (e : DxfErr)
    (he : e ≠ .outOfFuel) (rest : Stream) (hrest : Fine false rest) (fuel : Nat) :
    ∀ (a : List CodePair) (d d' : Drawing Img) (s' : Stream),
      (∀ p ∈ a, ¬ (p.code = 0 ∧ p.value = .str str!"EOF")) →
      (∀ p ∈ a, p.code = 2 → p.value ≠ .str str!"BLOCKS" ∧ p.value ≠ .str str!"ENTITIES" ∧
        p.value ≠ .str str!"OBJECTS") →
      readSections codec h0 fuel d (toStream a ++ some (.error e) :: rest) ≠ (.ok d', s') := by
  induction fuel with
  | zero => intro _ _ _ _ _ _ h; cases h
  | succ fuel ih =>
    intro a d d' s' ha ha2 h
    have mem : ∀ (c : List CodePair) (p : CodePair) (t : Stream) (a : List CodePair),
        toStream a ++ some (.error e) :: rest = toStream c ++ some (.ok p) :: t →
        ∃ a', a = c ++ p :: a' ∧ t = toStream a' ++ some (.error e) :: rest := by
      intro c
      induction c with
      | nil =>
        intro p t a h
        cases a with
        | nil => cases h
        | cons q a =>
          simp only [toStream_cons, List.cons_append, toStream_nil, List.nil_append,
            List.cons.injEq, Option.some.injEq, Except.ok.injEq] at h
          exact ⟨a, by rw [h.1]; rfl, h.2.symm⟩
      | cons q' c ihc =>
        intro p t a h
        cases a with
        | nil => cases h
        | cons q a =>
          simp only [toStream_cons, List.cons_append, List.cons.injEq, Option.some.injEq,
            Except.ok.injEq] at h
          obtain ⟨a', h1, h2⟩ := ihc p t a h.2
          exact ⟨a', by rw [h1, h.1]; rfl, h2⟩
    have hfine : Fine false (toStream a ++ some (.error e) :: rest) := by
      intro it hm
      rcases List.mem_append.mp hm with hm | hm
      · exact Fine.toStream a it hm
      · rcases List.mem_cons.mp hm with rfl | hm
        · simpa using he
        · exact hrest it hm
    rcases readSections_inv codec h0 h with ⟨h1, _⟩ | ⟨p, t, h1, hp, hv, _⟩ |
      ⟨p, q, name, t1, t2, d1, t3, t4, h1, hp, hv, h2, hq, hname, h3, h4, h5⟩
    · exact next?_err_none _ _ h1
    · obtain ⟨c, hc, e1, _⟩ := Rd.next?_ok h1
      obtain ⟨a', rfl, _⟩ := mem _ _ _ _ e1
      exact ha p (by simp) ⟨hp, hv⟩
    · obtain ⟨e', _, _, hsuf⟩ := section_suffix codec h0 hfine h1 h2 h3 h4
      obtain ⟨c1, _, e1, _⟩ := Rd.next?_ok h1
      obtain ⟨a1, ha1, e1'⟩ := mem _ _ _ _ e1
      obtain ⟨c2, _, e2, _⟩ := Rd.next_ok h2
      obtain ⟨a2, ha2', e2'⟩ := mem _ _ _ _ (e1'.symm.trans e2)
      obtain ⟨n1, n2, n3⟩ := ha2 q (by rw [ha1, ha2']; simp) hq
      rw [hname] at n1 n2 n3
      have hst := readSection_strict codec h0 name (fun h => n1 (by rw [h]))
        (fun h => n2 (by rw [h])) (fun h => n3 (by rw [h])) d _ _ _ h3
      have hk : errs t4 = errs rest + 1 := by
        rw [expect_strict _ _ _ _ h4, hst, e2']
        rw [errs_toStream]
        exact List.countP_cons_of_pos rfl
      obtain ⟨a', h6, h7⟩ : ∃ a' : List CodePair,
          t4 = toStream a' ++ some (.error e) :: rest ∧ a' <:+ a := by
        have hsuf' : t4 <:+ toStream a ++ some (.error e) :: rest :=
          (List.suffix_cons _ _).trans hsuf
        clear * - hsuf' hk
        induction a with
        | nil =>
          rcases List.suffix_cons_iff.mp hsuf' with h | h
          · exact ⟨[], h, List.suffix_refl _⟩
          · have := h.sublist.countP_le (p := isErr)
            unfold errs at hk
            omega
        | cons p a ih =>
          rcases List.suffix_cons_iff.mp hsuf' with h | h
          · exact ⟨p :: a, h, List.suffix_refl _⟩
          · obtain ⟨a', h1, h2⟩ := ih h
            exact ⟨a', h1, h2.trans (List.suffix_cons _ _)⟩
      rw [h6] at h5
      exact ih a' d1 d' s' (fun p hp => ha p (h7.subset hp)) (fun p hp => ha2 p (h7.subset hp)) h5

end Drawing

end Dxf
