import Verif.Lemmas.InsertTables

/-! Changes inside the sections of a file that hold entities, and inside blocks. -/

namespace Dxf

/-- The fields of a block are read up to a pair with code 0. -/
theorem itemLoop_zero {σ : Type} {step : CodePair → σ → Rd σ} (n : Nat) :
    ∀ (st st' : σ) (s t : Stream), itemLoop false step n st s = (.ok st', t) → StartsZero t := by
  induction n with
  | zero => intro _ _ _ _ h; cases h
  | succ n ih =>
    intro st st' s t h
    unfold itemLoop at h
    obtain ⟨a, t1, h1, h2⟩ := Rd.bind_inv h
    cases a with
    | none => cases h2
    | some p =>
      dsimp only at h2
      by_cases hp : p.code = 0
      · rw [if_pos hp] at h2
        obtain ⟨_, h3⟩ := Prod.mk.inj h2
        exact ⟨p, t1, h3.symm, hp⟩
      · rw [if_neg hp] at h2
        obtain ⟨st1, t2, _, h4⟩ := Rd.bind_inv h2
        exact ih _ _ _ _ h4

theorem blockFields_locC (e : Entry Blocks.decls) : LocC (· = 0) (blockFields e) :=
  item_locC false (fun p st => entryApply_locC zero_stops _ p st) _

/-- The fields are followed by the mark of the end. -/
theorem readFrom_end (fuel : Nat) (b : Block) {e : Entry Blocks.decls} {s t : Stream} {p : CodePair}
    (h : blockFields b.entry s = (.ok e, some (.ok p) :: t)) (hp : p.code = 0)
    (hv : p.value = .str str!"ENDBLK") :
    Block.readFrom (fuel + 1) b s = (do swallowItem; return { b with entry := e }) t := by
  unfold Block.readFrom
  refine (Rd.bind_ok h).trans ?_
  refine (Rd.bind_ok (Rd.next_cons (by omega) t)).trans ?_
  rw [if_pos hv]

/-- The fields are followed by entities. -/
theorem readFrom_more (fuel : Nat) (b : Block) {e : Entry Blocks.decls} {s t : Stream} {p : CodePair}
    (h : blockFields b.entry s = (.ok e, some (.ok p) :: t)) (hp : p.code = 0)
    (hv : p.value ≠ .str str!"ENDBLK") :
    Block.readFrom (fuel + 1) b s =
      (readEntities >>= fun es => Block.readFrom fuel ⟨e, b.entities ++ es⟩) (some (.ok p) :: t) := by
  conv => lhs; unfold Block.readFrom
  refine (Rd.bind_ok h).trans ?_
  refine (Rd.bind_ok (Rd.next_cons (by omega) t)).trans ?_
  rw [if_neg hv]
  rfl

theorem readFrom_inv {fuel : Nat} {b b' : Block} {s t : Stream}
    (h : Block.readFrom (fuel + 1) b s = (.ok b', t)) : ∃ (e : Entry Blocks.decls) (p : CodePair)
      (y : Stream), blockFields b.entry s = (.ok e, some (.ok p) :: y) ∧ p.code = 0 := by
  unfold Block.readFrom at h
  obtain ⟨e, t1, h1, _⟩ := Rd.bind_inv h
  have h2 := h1
  rw [Rd.run_withFuel] at h2
  obtain ⟨p, y, rfl, hp⟩ := itemLoop_zero _ _ _ _ _ h2
  exact ⟨e, p, y, h1, hp⟩

theorem readFrom_less (fuel : Nat) : ∀ (b b' : Block) (s t : Stream), Fine false s →
    Block.readFrom fuel b s = (.ok b', t) → t <:+ s ∧ t.length < s.length := by
  induction fuel with
  | zero => intro _ _ _ _ _ h; cases h
  | succ fuel ih =>
    intro b b' s t hs h
    obtain ⟨e, p, y, h1, hp⟩ := readFrom_inv h
    have k1 := (blockFields_locC b.entry).loc.suffix s hs
    rw [h1] at k1
    have hy : y <:+ s := (List.suffix_cons _ _).trans k1
    have l1 := k1.length_le
    simp only [List.length_cons] at l1
    by_cases hv : p.value = .str str!"ENDBLK"
    · rw [readFrom_end fuel b h1 hp hv] at h
      obtain ⟨_, t2, h2, h3⟩ := Rd.bind_inv h
      obtain ⟨_, rfl⟩ := Prod.mk.inj h3
      have k2 := swallowItem_loc.suffix y (hs.suffix hy)
      rw [h2] at k2
      exact ⟨k2.trans hy, by have := k2.length_le; dsimp only at this; omega⟩
    · rw [readFrom_more fuel b h1 hp hv] at h
      obtain ⟨es, t2, h2, h3⟩ := Rd.bind_inv h
      have k2 := readEntities_loc.suffix _ (hs.suffix k1)
      rw [h2] at k2
      dsimp only at k2
      have k3 := k2.trans k1
      obtain ⟨k4, k5⟩ := ih _ _ _ _ (hs.suffix k3) h3
      exact ⟨k4.trans k3, by have := k3.length_le; omega⟩

theorem readFrom_pass (fuel : Nat) : ∀ (b b' : Block) (u v : Stream) (q : CodePair) (z : Stream)
    (q' : CodePair) (z' : Stream), Fine false (u ++ some (.ok q) :: z) → q.code = 0 →
    q'.code = 0 → z.length ≤ z'.length →
    Block.readFrom fuel b (u ++ some (.ok q) :: z) = (.ok b', v ++ some (.ok q) :: z) →
    Block.readFrom fuel b (u ++ some (.ok q') :: z') = (.ok b', v ++ some (.ok q') :: z') := by
  induction fuel with
  | zero => intro b b' u v q z q' z' _ _ _ _ h; cases h
  | succ fuel ih =>
    intro b b' u v q z q' z' hfi hq hq' hl h
    obtain ⟨e, p, y, h1, hp⟩ := readFrom_inv h
    have k1 := (blockFields_locC b.entry).loc.suffix _ hfi
    rw [h1] at k1
    have hfy := hfi.suffix k1
    have fields : ∀ w : Stream, y = w ++ some (.ok q) :: z →
        blockFields b.entry (u ++ some (.ok q') :: z') =
          (.ok e, some (.ok p) :: (w ++ some (.ok q') :: z')) := by
      intro w hw
      subst hw
      exact (blockFields_locC b.entry).pass (v := some (.ok p) :: w) hfi hq hq' hl h1
    by_cases hv : p.value = .str str!"ENDBLK"
    · rw [readFrom_end fuel b h1 hp hv] at h
      obtain ⟨_, t2, h2, h3⟩ := Rd.bind_inv h
      obtain ⟨h4, rfl⟩ := Prod.mk.inj h3
      have k2 := swallowItem_loc.suffix y (hfy.suffix (List.suffix_cons _ _))
      rw [h2] at k2
      obtain ⟨w', hw⟩ := k2
      have hw : y = (w' ++ v) ++ some (.ok q) :: z := by rw [← hw]; simp
      rw [readFrom_end fuel b (fields _ hw) hp hv]
      have k3 := swallowItem_locC.pass (u := w' ++ v) (v := v) (q := q) (z := z)
        (q' := q') (z' := z') (a := ()) (hw ▸ hfy.suffix (List.suffix_cons _ _)) hq hq' hl
        (by rw [← hw]; exact h2)
      exact (Rd.bind_ok k3).trans (Prod.ext h4 rfl)
    · rw [readFrom_more fuel b h1 hp hv] at h
      obtain ⟨es, t2, h2, h3⟩ := Rd.bind_inv h
      have k2 := readEntities_loc.suffix _ hfy
      rw [h2] at k2
      dsimp only at k2
      have hf2 := hfy.suffix k2
      obtain ⟨k4, k5⟩ := readFrom_less _ _ _ _ _ hf2 h3
      obtain ⟨w', hw⟩ := k4
      have hw : t2 = (w' ++ v) ++ some (.ok q) :: z := by rw [← hw]; simp
      have hne : w' ++ v ≠ [] := by
        intro h0
        rw [hw, h0] at k5
        simp only [List.length_append, List.length_cons, List.nil_append] at k5
        omega
      obtain ⟨w2, hw2⟩ := k2
      cases w2 with
      | nil =>
        rw [List.nil_append] at hw2
        cases hwv : w' ++ v with
        | nil => exact absurd hwv hne
        | cons a w3 =>
          rw [hw, hwv, List.cons_append] at hw2
          obtain ⟨ha, hy⟩ := List.cons.inj hw2
          subst ha
          rw [readFrom_more fuel b (fields w3 hy.symm) hp hv]
          have k6 := readEntities_loc.loc (some (.ok p) :: w3) (some (.ok q) :: z)
            (some (.ok q') :: z') (w' ++ v) (by rw [List.cons_append, hy]; exact hfy) (by simp)
            (by simpa using hl) hne (by rw [List.cons_append, hy, h2]; exact Calm.ok)
            (by rw [List.cons_append, hy, h2, hw])
          rw [List.cons_append, List.cons_append, hy, h2] at k6
          refine (Rd.bind_ok k6).trans ?_
          exact ih _ _ _ _ q z q' z' (hw ▸ hf2) hq hq' hl (by rw [← hw]; exact h3)
      | cons a w2 =>
        rw [hw, List.cons_append] at hw2
        obtain ⟨ha, hy⟩ := List.cons.inj hw2
        subst ha
        have hy : y = (w2 ++ (w' ++ v)) ++ some (.ok q) :: z := by rw [← hy]; simp
        rw [readFrom_more fuel b (fields _ hy) hp hv]
        have k6 := readEntities_loc.loc (some (.ok p) :: (w2 ++ (w' ++ v))) (some (.ok q) :: z)
          (some (.ok q') :: z') (w' ++ v) (by rw [List.cons_append, ← hy]; exact hfy) (by simp)
          (by simpa using hl) hne (by rw [List.cons_append, ← hy, h2]; exact Calm.ok)
          (by rw [List.cons_append, ← hy, h2, hw])
        rw [List.cons_append, List.cons_append, ← hy, h2] at k6
        refine (Rd.bind_ok k6).trans ?_
        exact ih _ _ _ _ q z q' z' (hw ▸ hf2) hq hq' hl (by rw [← hw]; exact h3)

/-- At the mark of the end there is no further entity. -/
theorem nextEntity_endblk {p : CodePair} (hp : p.code = 0) (hv : p.value = .str str!"ENDBLK")
    (t : Stream) : nextEntity (some (.ok p) :: t) = (.ok none, some (.ok p) :: t) := by
  have : Rd.withFuel readEntity (some (.ok p) :: t) = (.ok none, some (.ok p) :: t) := by
    rw [Rd.run_withFuel, List.length_cons]
    unfold readEntity
    refine (Rd.bind_ok (Rd.next_cons (by omega) t)).trans ?_
    rw [if_pos hp]
    refine (Rd.bind_ok (m := Rd.lift p.assertString) (a := str!"ENDBLK") (s := _) (s' := _)
      (by unfold CodePair.assertString; rw [hv]; rfl)).trans ?_
    rw [if_pos (.inr rfl)]
    rfl
  unfold nextEntity
  rw [this]

theorem readEntities_none {s t : Stream} (h : nextEntity s = (.ok none, t)) :
    readEntities s = (.ok [], t) := by
  unfold readEntities
  rw [Rd.run_withFuel]
  unfold collectEntities
  exact Rd.bind_ok h

theorem blockFields_stop (e : Entry Blocks.decls) {p : CodePair} (hp : p.code = 0) (t : Stream) :
    blockFields e (some (.ok p) :: t) = (.ok e, some (.ok p) :: t) := by
  unfold blockFields
  rw [Rd.run_withFuel]
  unfold itemLoop
  refine (Rd.bind_ok (Rd.next?_cons (by omega) t)).trans ?_
  dsimp only
  rw [if_pos hp]
  rfl

/-- The same block with something changed among its entities. -/
theorem readFrom_same {e : Entry Blocks.decls} {s s' : Stream} {p p' : CodePair} {t t' : Stream}
    (b : Block) (h : blockFields b.entry s = (.ok e, some (.ok p) :: t))
    (h' : blockFields b.entry s' = (.ok e, some (.ok p') :: t')) (hp : p.code = 0)
    (hp' : p'.code = 0) (hi : Ins nextEntity (some (.ok p) :: t) (some (.ok p') :: t'))
    (hfi : Fine false (some (.ok p) :: t)) (k n : Nat)
    (hn : 1 ≤ n ∨ p = p') (hc : Calm (Block.readFrom (k + 1) b s).1) :
    Sim (Block.readFrom (k + 1) b s) (Block.readFrom (k + 1 + n) b s') := by
  rw [show k + 1 + n = (k + n) + 1 by omega]
  by_cases hv : p.value = .str str!"ENDBLK"
  · have k1 := nextEntity_endblk hp hv t
    rw [readFrom_end k b h hp hv]
    cases hi with
    | next h1 _ _ _ => rw [k1] at h1; cases h1
    | here h1 hl =>
      have k2 := h1 (by rw [k1]; exact Calm.ok)
      rw [k1] at k2
      by_cases hv' : p'.value = .str str!"ENDBLK"
      · have k3 := nextEntity_endblk hp' hv' t'
        rw [k2] at k3
        obtain ⟨_, k4⟩ := Prod.mk.inj k3
        obtain ⟨k5, rfl⟩ := List.cons.inj k4
        rw [readFrom_end (k + n) b h' hp' hv']
        exact .refl
      · obtain ⟨n, rfl⟩ : ∃ m, n = m + 1 := by
          rcases hn with hn | rfl
          · exact ⟨n - 1, by omega⟩
          · exact absurd hv hv'
        rw [readFrom_more _ b h' hp' hv']
        have k6 := Rd.bind_ok (f := fun es => Block.readFrom (k + (n + 1)) ⟨e, b.entities ++ es⟩)
          (readEntities_none k2)
        rw [k6, show k + (n + 1) = (k + n) + 1 by omega,
          readFrom_end (k + n) ⟨e, b.entities ++ []⟩ (blockFields_stop e hp t) hp hv]
        rw [List.append_nil]
        exact .refl
  · by_cases hv' : p'.value = .str str!"ENDBLK"
    · have k1 := nextEntity_endblk hp' hv' t'
      exfalso
      cases hi with
      | next _ h1 _ _ => rw [k1] at h1; cases h1
      | here h1 hl =>
        rw [readFrom_more k b h hp hv, Rd.run_bind] at hc
        by_cases hcalm : Calm (nextEntity (some (.ok p) :: t)).1
        · have k2 := h1 hcalm
          rw [k1] at k2
          have k3 := nextEntity_loc.suffix _ hfi
          rw [← k2] at k3
          have k4 := k3.eq_of_length (Nat.le_antisymm k3.length_le hl)
          obtain ⟨k5, _⟩ := List.cons.inj k4
          cases k5
          exact hv hv'
        · refine hc ?_
          have : readEntities (some (.ok p) :: t) =
              (.error .outOfFuel, (nextEntity (some (.ok p) :: t)).2) := by
            unfold readEntities
            rw [Rd.run_withFuel]
            unfold collectEntities
            rcases hr : nextEntity (some (.ok p) :: t) with ⟨x, y⟩
            rw [hr] at hcalm
            have : x = .error .outOfFuel := Classical.not_not.mp hcalm
            subst this
            exact Rd.bind_err hr
          rw [this]
    · rw [readFrom_more k b h hp hv] at hc ⊢
      rw [readFrom_more (k + n) b h' hp' hv']
      have h2 : Same (readEntities >>= fun es => Block.readFrom k ⟨e, b.entities ++ es⟩)
          (some (.ok p) :: t) (some (.ok p') :: t') := (readEntities_resp _ _ hi).bind
      refine (h2 hc).trans ?_
      have hb : Below (readEntities >>= fun es => Block.readFrom k ⟨e, b.entities ++ es⟩)
          (readEntities >>= fun es => Block.readFrom (k + n) ⟨e, b.entities ++ es⟩) :=
        .bind .rfl fun a => (blockReadFrom_mono _).le (Nat.le_add_right k n)
      rw [hb _ ((h2 hc).calm hc)]
      exact .refl

theorem blockRead_same {e : Entry Blocks.decls} {s s' : Stream} {p p' : CodePair} {t t' : Stream}
    (h : blockFields Block.dflt.entry s = (.ok e, some (.ok p) :: t))
    (h' : blockFields Block.dflt.entry s' = (.ok e, some (.ok p') :: t')) (hp : p.code = 0)
    (hp' : p'.code = 0) (hi : Ins nextEntity (some (.ok p) :: t) (some (.ok p') :: t'))
    (hfi : Fine false (some (.ok p) :: t))
    (hl : s.length < s'.length ∨ s.length ≤ s'.length ∧ p = p') : Same Block.read s s' := by
  intro hc
  unfold Block.read at hc ⊢
  rw [Rd.run_withFuel] at hc ⊢
  rw [Rd.run_withFuel]
  have := readFrom_same Block.dflt h h' hp hp' hi hfi s.length (s'.length - s.length)
    (by rcases hl with hl | hl; exacts [.inl (by omega), .inr hl.2]) hc
  rw [show s.length + 1 + (s'.length - s.length) = s'.length + 1 by omega] at this
  exact this

/-- A place among the entities of a block. -/
theorem block_same {e : Entry Blocks.decls} {a w : Stream} {q : CodePair} {z : Stream}
    {q' : CodePair} {z' : Stream} (hq : q.code = 0) (hq' : q'.code = 0)
    (hl : z.length < z'.length ∨ z.length ≤ z'.length ∧ q = q')
    (h : blockFields Block.dflt.entry (a ++ (w ++ some (.ok q) :: z)) =
      (.ok e, w ++ some (.ok q) :: z))
    (hi : Ins nextEntity (w ++ some (.ok q) :: z) (w ++ some (.ok q') :: z'))
    (hfi : Fine false (a ++ (w ++ some (.ok q) :: z))) :
    Same Block.read (a ++ (w ++ some (.ok q) :: z)) (a ++ (w ++ some (.ok q') :: z')) := by
  have h1 := (blockFields_locC Block.dflt.entry).pass (u := a ++ w) (v := w) (q' := q') (z' := z')
    (by rw [List.append_assoc]; exact hfi) hq hq'
    (by rcases hl with hl | hl; exacts [Nat.le_of_lt hl, hl.1])
    (by rw [List.append_assoc]; exact h)
  rw [List.append_assoc] at h1
  have hz : StartsZero (w ++ some (.ok q) :: z) := by
    have h2 := h
    unfold blockFields at h2
    rw [Rd.run_withFuel] at h2
    exact itemLoop_zero _ _ _ _ _ h2
  have hlen : (a ++ (w ++ some (.ok q) :: z)).length < (a ++ (w ++ some (.ok q') :: z')).length ∨
      (a ++ (w ++ some (.ok q) :: z)).length ≤ (a ++ (w ++ some (.ok q') :: z')).length ∧ q = q' := by
    simp only [List.length_append, List.length_cons]
    rcases hl with hl | ⟨hl, rfl⟩
    · exact .inl (by omega)
    · exact .inr ⟨by omega, rfl⟩
  cases w with
  | nil => exact blockRead_same h h1 hq hq' hi (hfi.suffix (List.suffix_append _ _)) hlen
  | cons p w =>
    obtain ⟨p0, t0, hp, h0⟩ := hz
    obtain ⟨rfl, _⟩ := List.cons.inj hp
    exact blockRead_same h h1 h0 h0 hi (hfi.suffix (List.suffix_append _ _))
      (.inr ⟨by rcases hlen with h | h; exacts [Nat.le_of_lt h, h.1], rfl⟩)

namespace Drawing

variable {Img : Type}

theorem entitySection_same (d : Drawing Img) {y y' : Stream} (h : Ins nextEntity y y') :
    Same d.readEntitySection y y' := (readEntities_resp y y' h).bind

theorem objectSection_same (d : Drawing Img) {y y' : Stream} (h : Ins nextObject y y') :
    Same d.readObjectSection y y' := (readObjects_resp y y' h).bind

theorem wholeBlock_inv {d d' : Drawing Img} {s t : Stream} (h : wholeBlock d s = (.ok d', t)) :
    ∃ (c : List CodePair) (op : CodePair) (y : Stream) (b : Block), (∀ q ∈ c, q.code = 999) ∧
      (op.code = 0 ∧ op.value = .str str!"BLOCK") ∧ s = toStream c ++ some (.ok op) :: y ∧
      Block.read y = (.ok b, t) ∧ d.addReadBlock b = .ok d' := by
  obtain ⟨_, t1, h1, h2⟩ := Rd.bind_inv h
  obtain ⟨c, op, hc, rfl, hop⟩ := expect_ok h1
  obtain ⟨b, t2, h3, h4⟩ := Rd.bind_inv h2
  unfold Rd.lift at h4
  obtain ⟨h5, rfl⟩ := Prod.mk.inj h4
  exact ⟨c, op, t1, b, hc, hop, rfl, h3, h5⟩

theorem wholeBlock_run {d d' : Drawing Img} {c : List CodePair} {op : CodePair} {y t : Stream}
    {b : Block} (hc : ∀ q ∈ c, q.code = 999) (hop : op.code = 0 ∧ op.value = .str str!"BLOCK")
    (h : Block.read y = (.ok b, t)) (hd : d.addReadBlock b = .ok d') :
    wholeBlock d (toStream c ++ some (.ok op) :: y) = (.ok d', t) := by
  unfold wholeBlock readBlock
  refine (Rd.bind_ok (expect_run _ c hc op hop.1 hop.2 _)).trans ?_
  refine (Rd.bind_ok h).trans ?_
  unfold Rd.lift
  rw [hd]

theorem wholeBlock_passes : Passes (· = 0) (wholeBlock (Img := Img)) := by
  refine ⟨fun d s d' t hs h => ?_, fun d d' u v q z q' z' hfi hq hq' hl h => ?_⟩
  · obtain ⟨c, op, y, b, hc, hop, rfl, h1, _⟩ := wholeBlock_inv h
    have hy : y <:+ toStream c ++ some (.ok op) :: y :=
      (List.suffix_cons _ _).trans (List.suffix_append _ _)
    unfold Block.read at h1
    rw [Rd.run_withFuel] at h1
    obtain ⟨k1, k2⟩ := readFrom_less _ _ _ _ _ (hs.suffix hy) h1
    exact ⟨k1.trans hy, by simp only [List.length_append, List.length_cons]; omega⟩
  · obtain ⟨c, op, y, b, hc, hop, hs, h1, h2⟩ := wholeBlock_inv h
    have hy : y <:+ u ++ some (.ok q) :: z := by
      rw [hs]; exact (List.suffix_cons _ _).trans (List.suffix_append _ _)
    unfold Block.read at h1
    rw [Rd.run_withFuel] at h1
    obtain ⟨⟨w', hw⟩, k2⟩ := readFrom_less _ _ _ _ _ (hfi.suffix hy) h1
    have hw : y = (w' ++ v) ++ some (.ok q) :: z := by rw [← hw]; simp
    rw [split_tail hw hs, List.append_assoc, List.cons_append]
    refine wholeBlock_run hc hop ?_ h2
    have k3 := readFrom_pass (y.length + 1) Block.dflt b (w' ++ v) v q z q' z'
      (hw ▸ hfi.suffix hy) hq hq' hl (by rw [← hw]; exact h1)
    unfold Block.read
    rw [Rd.run_withFuel, ← k3]
    refine (blockReadFrom_mono _).le ?_ _ (by rw [k3]; exact Calm.ok)
    rw [hw]
    simp only [List.length_append, List.length_cons]; omega

/-- The same item with another content. -/
theorem item_sim (type : Str) (hne : type ≠ str!"ENDSEC")
    (callback : Drawing Img → Rd (Drawing Img)) (d : Drawing Img) (op : CodePair)
    (hop : op.code = 0 ∧ op.value = .str type) {y y' : Stream} (h : Same (callback d) y y')
    (k n : Nat) (hc : Calm (readItems type callback (k + 1) d (some (.ok op) :: y)).1) :
    Sim (readItems type callback (k + 1) d (some (.ok op) :: y))
      (readItems type callback (k + 1 + n) d (some (.ok op) :: y')) := by
  have e1 := readItems_open type hne callback k d [] (by simp) op hop y
  have e2 := readItems_open type hne callback (k + n) d [] (by simp) op hop y'
  simp only [toStream_nil, List.nil_append] at e1 e2
  rw [e1] at hc ⊢
  rw [show k + 1 + n = k + n + 1 by omega, e2]
  have h2 : Same (callback d >>= readItems type callback k) y y' := h.bind
  refine (h2 hc).trans ?_
  have hb : Below (callback d >>= readItems type callback k)
      (callback d >>= readItems type callback (k + n)) :=
    .bind .rfl fun a => (readItems_mono type callback a).le (Nat.le_add_right k n)
  rw [hb y' ((h2 hc).calm hc)]
  exact .refl

/-- A place inside a block. -/
theorem blocks_same {u : Stream} {op : CodePair} (hop : op.code = 0 ∧ op.value = .str str!"BLOCK")
    {y y' : Stream} (hl : y.length ≤ y'.length) {d d' : Drawing Img}
    (hfi : Fine false (u ++ some (.ok op) :: y))
    (hh : Steps wholeBlock d (u ++ some (.ok op) :: y) d' (some (.ok op) :: y))
    (h : Same Block.read y y') :
    Same (Rd.withFuel fun k => readItems str!"BLOCK" readBlock k d) (u ++ some (.ok op) :: y)
      (u ++ some (.ok op) :: y') :=
  Steps.same wholeBlock_passes (f := readItems str!"BLOCK" readBlock)
    (wholeItem_loop (Img := Img) str!"BLOCK" (by decide) readBlock) (q := op) (q' := op) hop.1 hop.1
    hl hh hfi fun k hc => item_sim str!"BLOCK" (by decide) readBlock d' op hop h.bind k _ hc

end Drawing

end Dxf
