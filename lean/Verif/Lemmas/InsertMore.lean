import Verif.Lemmas.InsertItems

/-! Unknown entities, objects, tables, header variables and group codes. -/

namespace Dxf

/-! ### Unknown entities -/

/-- An item that is not understood is read to its end. -/
theorem swallow_item (content : List CodePair) (hcon : ∀ p ∈ content, p.code ≠ 0) (q : CodePair)
    (hq : q.code = 0) (b : Stream) :
    swallowItem (toStream content ++ some (.ok q) :: b) = (.ok (), some (.ok q) :: b) := by
  unfold swallowItem
  rw [Rd.run_withFuel]
  have : ∀ k, content.length < k → itemLoop false (fun _ _ => (return () : Rd Unit)) k ()
      (toStream content ++ some (.ok q) :: b) = (.ok (), some (.ok q) :: b) := by
    induction content with
    | nil =>
      intro k hk
      obtain ⟨k, rfl⟩ : ∃ m, k = m + 1 := ⟨k - 1, by simp at hk; omega⟩
      unfold itemLoop
      refine (Rd.bind_ok (Rd.next?_cons (by omega) b)).trans ?_
      dsimp only
      rw [if_pos hq]
      rfl
    | cons p content ih =>
      intro k hk
      obtain ⟨k, rfl⟩ : ∃ m, k = m + 1 := ⟨k - 1, by simp at hk; omega⟩
      have ih' := ih fun p hp => hcon p (by simp [hp])
      by_cases h9 : p.code = 999
      · rw [← ih' (k + 1) (by simp at hk; omega), toStream_cons, List.cons_append]
        unfold itemLoop
        rw [Rd.run_bind, Rd.run_bind]
        have : Rd.next? (some (.ok p) :: (toStream content ++ some (.ok q) :: b)) =
            Rd.next? (toStream content ++ some (.ok q) :: b) := by
          unfold Rd.next?
          rw [Stream.next, if_pos (by simpa [isComment] using h9)]
        rw [this]
      · unfold itemLoop
        refine (Rd.bind_ok (Rd.next?_cons h9 _)).trans ?_
        dsimp only
        rw [if_neg (hcon p (by simp))]
        exact ih' k (by simpa using hk)
  exact this _ (by simp [toStream]; omega)

theorem readEntity_unknown {U : List CodePair} (hU : UnknownEntity U) (q : CodePair)
    (hq : q.code = 0) (z : Stream) (k : Nat) :
    readEntity (k + 1) (toStream U ++ some (.ok q) :: z) = readEntity k (some (.ok q) :: z) := by
  obtain ⟨op, x, content, hop, hx, he, hcon⟩ := hU
  have h1 := readEntity_open k [] (by simp) op hop.1 x
    (by unfold CodePair.assertString; rw [hop.2]) (by simp [he])
    (toStream content ++ some (.ok q) :: z)
  rw [show toStream (op :: content) ++ some (.ok q) :: z =
    toStream [] ++ some (.ok op) :: (toStream content ++ some (.ok q) :: z) by simp [toStream], h1]
  unfold entityBody
  simp only [hx]
  exact Rd.bind_ok (swallow_item content hcon q hq z)

/-- A change of the input that `readEntity` does not see. -/
theorem nextEntity_same {b b' : Stream} (hl : b.length ≤ b'.length)
    (h : ∀ k, Calm (readEntity (k + 1) b).1 →
      readEntity (k + 1 + (b'.length - b.length)) b' = readEntity (k + 1) b) :
    Calm (nextEntity b).1 → nextEntity b' = nextEntity b := by
  intro hc
  have hc' : Calm (Rd.withFuel readEntity b).1 := by
    unfold nextEntity at hc
    rcases hr : Rd.withFuel readEntity b with ⟨e | a, t⟩
    · rw [hr] at hc
      cases e <;> first | exact absurd rfl hc | simp [Calm]
    · exact Calm.ok
  have : Rd.withFuel readEntity b' = Rd.withFuel readEntity b := by
    rw [Rd.run_withFuel] at hc' ⊢
    rw [Rd.run_withFuel, ← h _ hc']
    congr 1
    omega
  unfold nextEntity
  rw [this]

theorem nextEntity_unknown {U : List CodePair} (hU : UnknownEntity U) (q : CodePair)
    (hq : q.code = 0) (z : Stream) (hc : Calm (nextEntity (some (.ok q) :: z)).1) :
    nextEntity (toStream U ++ some (.ok q) :: z) = nextEntity (some (.ok q) :: z) := by
  refine nextEntity_same ?_ (fun k hk => ?_) hc
  · simp
  · have hn : 1 ≤ U.length := by
      obtain ⟨op, x, content, _⟩ := hU; simp
    have : (toStream U ++ some (.ok q) :: z).length - (some (Except.ok q) :: z : Stream).length =
        U.length := by
      simp only [List.length_append, List.length_cons, toStream_length]; omega
    rw [this, show k + 1 + U.length = (k + U.length) + 1 by omega, readEntity_unknown hU q hq z]
    exact readEntity_mono.le (by omega) _ hk

/-! ### Unknown group codes -/

theorem pairBy_passes {σ : Type} {step : CodePair → σ → Rd σ}
    (hstep : ∀ p st, LocC Outside (step p st)) : Passes Outside (pairBy step) := by
  have hl : ∀ st, LocC Outside (pairBy step st) := by
    intro st
    unfold pairBy
    exact .nextDrop (by simp [Outside]) fun p => .ite (fun _ => .fail) fun _ => hstep p st
  refine ⟨fun st s st' t hs h => ?_, fun st st' u v q z q' z' hfi hq hq' hlen h => ?_⟩
  · obtain ⟨p, y, h1, h2⟩ := Rd.bind_inv h
    obtain ⟨c, hc, rfl, _⟩ := Rd.next_ok h1
    have hy : y <:+ toStream c ++ some (.ok p) :: y :=
      (List.suffix_cons _ _).trans (List.suffix_append _ _)
    have h3 : t <:+ y := by
      have := (Loc.ite (c := p.code = 0) (fun _ => Loc.fail) fun _ => (hstep p st).loc :
        Loc (if p.code = 0 then Rd.fail (.unexpectedCodePair p) else step p st)).suffix y
          (hs.suffix hy)
      rwa [h2] at this
    refine ⟨h3.trans hy, ?_⟩
    have := h3.length_le
    simp only [List.length_append, List.length_cons]
    omega
  · exact (hl st).pass hfi hq hq' hlen h

theorem pairBy_loop {σ : Type} (eof : Bool) {step : CodePair → σ → Rd σ} (n : Nat) (st : σ)
    (s : Stream) (st1 : σ) (t : Stream) (h : pairBy step st s = (.ok st1, t)) :
    itemLoop eof step (n + 1) st s = itemLoop eof step n st1 t := by
  obtain ⟨p, y, h1, h2⟩ := Rd.bind_inv h
  obtain ⟨c, hc, rfl, h9⟩ := Rd.next_ok h1
  by_cases hp : p.code = 0
  · rw [if_pos hp] at h2; cases h2
  rw [if_neg hp] at h2
  conv => lhs; unfold itemLoop
  refine (Rd.bind_ok (next?_comments c hc p h9 _)).trans ?_
  dsimp only
  rw [if_neg hp]
  exact Rd.bind_ok h2

theorem pairBy_skip {σ : Type} {step : CodePair → σ → Rd σ} {p : CodePair} (h0 : p.code ≠ 0)
    (h9 : p.code ≠ 999) (st : σ) (hs : step p st = pure st) (b : Stream) :
    pairBy step st (some (.ok p) :: b) = (.ok st, b) := by
  unfold pairBy
  refine (Rd.bind_ok (Rd.next_cons h9 b)).trans ?_
  rw [if_neg h0, hs]
  rfl

/-- An unknown pair inside an item. -/
theorem item_skip {σ : Type} (eof : Bool) {step : CodePair → σ → Rd σ}
    (hstep : ∀ p st, LocC Outside (step p st)) {p : CodePair} (h0 : p.code ≠ 0)
    (hp : Outside p.code) {st st' : σ} (hs : step p st' = pure st') {u : Stream} {q : CodePair}
    {z : Stream} (hq : Outside q.code) (hfi : Fine false (u ++ some (.ok q) :: z))
    (hh : Steps (pairBy step) st (u ++ some (.ok q) :: z) st' (some (.ok q) :: z))
    (hc : Calm (Rd.withFuel (fun n => itemLoop eof step n st) (u ++ some (.ok q) :: z)).1) :
    Rd.withFuel (fun n => itemLoop eof step n st) (u ++ some (.ok p) :: some (.ok q) :: z) =
      Rd.withFuel (fun n => itemLoop eof step n st) (u ++ some (.ok q) :: z) := by
  refine Steps.exact (pairBy_passes hstep) (f := fun n st => itemLoop eof step n st)
    (pairBy_loop eof) (q := q) (q' := p) hq hp (by simp) hh hfi (fun n hc => ?_) hc
  exact skip_eq (g := pairBy step) (f := fun n st => itemLoop eof step n st)
    (pairBy_loop eof) (itemLoop_mono _ _) (pairBy_skip h0 hp.2 st' hs _) (by simp) hc

theorem EName.step_unknown {k : EName} {c : Int} (h : k.Unknown c) (p : CodePair) (hp : p.code = c)
    (st : Mode × Entry k.decls) : k.step p st = pure st := by
  obtain ⟨_, h2, _, h4, h5⟩ := h
  obtain ⟨h6, h7⟩ := h5 st.1
  unfold EName.step Entry.apply
  rw [if_neg (by omega), if_neg (by omega)]
  unfold applyPair
  rw [hp, h6, h7 p hp]
  rfl

theorem entryApply_unknown {ds : List Decl} {arms : List (Arm ds)} {c : Int} (h : UnknownCode arms c)
    (p : CodePair) (hp : p.code = c) (e : Entry ds) : Entry.apply arms p e = pure e := by
  obtain ⟨_, h2, _, h4, h6⟩ := h
  unfold Entry.apply
  rw [if_neg (by omega), if_neg (by omega)]
  unfold applyPair
  rw [hp, h6]
  rfl

/-- The entity in which it stands. -/
theorem nextEntity_code {k : EName} {c : Int} (h : k.Unknown c) (p : CodePair) (hp : p.code = c)
    {op : CodePair} {x : Str} (hop : op.code = 0 ∧ op.value = .str x) (hx : EName.ofType x = some k)
    (he : x ≠ str!"ENDSEC" ∧ x ≠ str!"ENDBLK") {st' : Mode × Entry k.decls} {u : Stream}
    {q : CodePair} {z : Stream} (hq : Outside q.code)
    (hfi : Fine false (u ++ some (.ok q) :: z))
    (hh : Steps (onePair k) (Mode.start, Entry.dflt k.decls) (u ++ some (.ok q) :: z) st'
      (some (.ok q) :: z)) (hc : Calm (nextEntity (some (.ok op) :: (u ++ some (.ok q) :: z))).1) :
    nextEntity (some (.ok op) :: (u ++ some (.ok p) :: some (.ok q) :: z)) =
      nextEntity (some (.ok op) :: (u ++ some (.ok q) :: z)) := by
  refine nextEntity_same (by simp) (fun n hn => ?_) hc
  have o1 := fun n y => readEntity_open n [] (by simp) op hop.1 x
    (by unfold CodePair.assertString; rw [hop.2]) (by simp [he]) y
  simp only [toStream_nil, List.nil_append] at o1
  have e : (some (Except.ok op) :: (u ++ some (.ok p) :: some (.ok q) :: z) : Stream).length -
      (some (Except.ok op) :: (u ++ some (.ok q) :: z) : Stream).length = 1 := by
    simp only [List.length_append, List.length_cons]; omega
  rw [e, o1]
  rw [o1] at hn ⊢
  unfold entityBody at hn ⊢
  simp only [hx] at hn ⊢
  rw [Rd.run_bind] at hn ⊢
  rw [Rd.run_bind]
  have h' := h
  obtain ⟨h0, _, h9, h1000, _⟩ := h'
  have hs := item_skip k.kind.eof (fun p st => k.step_locC (fun _ h => h) p st) (p := p) (by omega)
    (by unfold Outside; omega) (EName.step_unknown h p hp st') hq hfi hh
  rcases h1 : Rd.withFuel (fun n => itemLoop k.kind.eof k.step n (Mode.start, Entry.dflt k.decls))
    (u ++ some (.ok q) :: z) with ⟨e | st, t⟩
  · rw [h1] at hn hs
    rw [hs fun he => hn (by cases he; rfl)]
  · rw [h1] at hn hs
    rw [hs Calm.ok]
    dsimp only at hn ⊢
    cases hk : k.kind.sub st.1 with
    | some n => rfl
    | none =>
      simp only [hk] at hn ⊢
      exact readEntity_mono.le (by omega) _ hn

end Dxf
