import Verif.Lemmas.InsertFile

/-! Inserting an item among entities or objects. -/

namespace Dxf

/-! ### Sequences of items -/

/-- Two streams from which the same items are read up to a place at which they differ in something
that `nx` does not see. -/
inductive Ins {α : Type} (nx : Rd (Option α)) : Stream → Stream → Prop
  | here {b b' : Stream} (h : Calm (nx b).1 → nx b' = nx b) (hl : b.length ≤ b'.length) : Ins nx b b'
  | next {s s' t t' : Stream} {x : α} (h : nx s = (.ok (some x), t)) (h' : nx s' = (.ok (some x), t'))
    (hl : s.length ≤ s'.length) (hs : Ins nx t t') : Ins nx s s'

theorem Ins.length {α : Type} {nx : Rd (Option α)} {s s' : Stream} (h : Ins nx s s') :
    s.length ≤ s'.length := by
  cases h <;> assumption

theorem oneMore_inv {α : Type} {nx : Rd (Option α)} {xs ys : List α} {s t : Stream}
    (h : oneMore nx xs s = (.ok ys, t)) : ∃ x, nx s = (.ok (some x), t) ∧ ys = xs ++ [x] := by
  obtain ⟨a, t', h1, h2⟩ := Rd.bind_inv h
  cases a with
  | none => cases h2
  | some x => cases h2; exact ⟨x, h1, rfl⟩

/-- Items are read one by one whatever comes behind them. -/
structure NextOk {α : Type} (nx : Rd (Option α)) : Prop where
  less : ∀ s x t, Fine false s → nx s = (.ok (some x), t) → t <:+ s
  pass : ∀ (x : α) (u v : Stream) (q : CodePair) (z : Stream) (q' : CodePair) (z' : Stream),
    Fine false (u ++ some (.ok q) :: z) → q.code = 0 → q'.code = 0 → z.length ≤ z'.length →
    nx (u ++ some (.ok q) :: z) = (.ok (some x), v ++ some (.ok q) :: z) →
    nx (u ++ some (.ok q') :: z') = (.ok (some x), v ++ some (.ok q') :: z')

theorem Steps.ins {α : Type} {nx : Rd (Option α)} (hnx : NextOk nx) {xs ys : List α} {u : Stream}
    {q : CodePair} {z : Stream} {q' : CodePair} {z' : Stream} (hq : q.code = 0) (hq' : q'.code = 0)
    (hl : z.length ≤ z'.length)
    (h : Steps (oneMore nx) xs (u ++ some (.ok q) :: z) ys (some (.ok q) :: z))
    (hfi : Fine false (u ++ some (.ok q) :: z))
    (hb : Calm (nx (some (.ok q) :: z)).1 → nx (some (.ok q') :: z') = nx (some (.ok q) :: z)) :
    Ins nx (u ++ some (.ok q) :: z) (u ++ some (.ok q') :: z') := by
  generalize hs : u ++ some (.ok q) :: z = s at h
  generalize hb' : some (Except.ok q) :: z = b at h
  induction h generalizing u with
  | here =>
    subst hb'
    have : u = [] := by
      have := congrArg List.length hs
      simp only [List.length_append, List.length_cons] at this
      exact List.eq_nil_of_length_eq_zero (by omega)
    subst this
    exact .here hb (by simpa using hl)
  | @next st st1 st' s t b h hs' ih =>
    subst hs hb'
    obtain ⟨x, h1, _⟩ := oneMore_inv h
    have h2 := hnx.less _ _ _ hfi h1
    have suf : ∀ st s st' b, Fine false s → Steps (oneMore nx) st s st' b → b <:+ s := by
      intro st s st' b hs h
      induction h with
      | here => exact List.suffix_refl _
      | next h _ ih =>
        obtain ⟨x, h1, _⟩ := oneMore_inv h
        have := hnx.less _ _ _ hs h1
        exact (ih (hs.suffix this)).trans this
    obtain ⟨v, hv⟩ := suf _ _ _ _ (hfi.suffix h2) hs'
    have h3 := ih (u := v) (hv ▸ hfi.suffix h2) hv rfl
    subst hv
    exact .next h1 (hnx.pass x u v q z q' z' hfi hq hq' hl h1) (by
      simp only [List.length_append, List.length_cons]; omega) h3

/-- A reader that reads items gives the same for both streams; the rests are the same or such
streams again. -/
def Resp {α β : Type} (nx : Rd (Option α)) (r : Rd β) : Prop :=
  ∀ s s', Ins nx s s' → Calm (r s).1 →
    (r s').1 = (r s).1 ∧ ((r s').2 = (r s).2 ∨ Ins nx (r s).2 (r s').2)

/-- The same for a reader that goes on until there are no more items. -/
def RespAll {α β : Type} (nx : Rd (Option α)) (r : Rd β) : Prop := ∀ s s', Ins nx s s' → Same r s s'

namespace Resp

variable {α β γ : Type} {nx : Rd (Option α)}

theorem pure {b : β} : Resp nx (Pure.pure b : Rd β) := fun _ _ h _ => ⟨rfl, .inr h⟩

theorem fail {e : DxfErr} : Resp nx (Rd.fail e : Rd β) := fun _ _ h _ => ⟨rfl, .inr h⟩

theorem item : Resp nx nx := by
  intro s s' h hc
  cases h with
  | here h _ => rw [h hc]; exact ⟨rfl, .inl rfl⟩
  | next h h' _ hs => rw [h, h']; exact ⟨rfl, .inr hs⟩

theorem bind {m : Rd β} {f : β → Rd γ} (hm : Resp nx m) (hf : ∀ a, Resp nx (f a)) :
    Resp nx (m >>= f) := by
  intro s s' h hc
  rw [Rd.run_bind] at hc ⊢
  rw [Rd.run_bind]
  have h1 := hm s s' h
  rcases h2 : m s with ⟨x, t⟩
  rcases h3 : m s' with ⟨x', t'⟩
  rw [h2] at h1 hc
  rw [h3] at h1
  cases x with
  | error e =>
    obtain ⟨h4, h5⟩ := h1 fun he => hc (by cases he; rfl)
    dsimp only at h4
    subst h4
    exact ⟨rfl, h5⟩
  | ok a =>
    obtain ⟨h4, h5⟩ := h1 Calm.ok
    dsimp only at h4 h5
    subst h4
    rcases h5 with rfl | h5
    · exact ⟨rfl, .inl rfl⟩
    · exact hf a t t' h5 hc

theorem withFuel {f : Nat → Rd β} (h : ∀ k, Resp nx (f k)) (hm : Mono f) :
    Resp nx (Rd.withFuel f) := by
  intro s s' hi hc
  rw [Rd.run_withFuel] at hc ⊢
  rw [Rd.run_withFuel]
  have h1 := h (s.length + 1) s s' hi hc
  have h2 : f (s'.length + 1) s' = f (s.length + 1) s' :=
    hm.le (Nat.succ_le_succ hi.length) s' (by rw [h1.1]; exact hc)
  rw [h2]
  exact h1

end Resp

namespace RespAll

variable {α β γ : Type} {nx : Rd (Option α)}

theorem bind {m : Rd β} {f : β → Rd γ} (hm : Resp nx m) (hf : ∀ a, RespAll nx (f a)) :
    RespAll nx (m >>= f) := by
  intro s s' h hc
  rw [Rd.run_bind] at hc ⊢
  rw [Rd.run_bind]
  have h1 := hm s s' h
  rcases h2 : m s with ⟨x, t⟩
  rcases h3 : m s' with ⟨x', t'⟩
  rw [h2] at h1 hc
  rw [h3] at h1
  cases x with
  | error e =>
    obtain ⟨h4, h5⟩ := h1 fun he => hc (by cases he; rfl)
    dsimp only at h4
    subst h4
    exact ⟨rfl, fun a ha => by cases ha⟩
  | ok a =>
    obtain ⟨h4, h5⟩ := h1 Calm.ok
    dsimp only at h4 h5
    subst h4
    rcases h5 with rfl | h5
    · exact .refl
    · exact hf a t t' h5 hc

/-- The next item decides. -/
theorem item {f : Option α → Rd γ} (h0 : ∀ s, (f none s).2 = s) (hf : ∀ x, RespAll nx (f (some x))) :
    RespAll nx (nx >>= f) := by
  intro s s' h hc
  rw [Rd.run_bind] at hc ⊢
  rw [Rd.run_bind]
  cases h with
  | here h _ =>
    have : Calm (nx s).1 := by
      intro he
      rcases h2 : nx s with ⟨x, t⟩
      rw [h2] at hc he
      dsimp only at he
      subst he
      exact hc rfl
    rw [h this]
    exact .refl
  | @next _ _ t t' x h h' _ hs =>
    rw [h] at hc ⊢
    rw [h']
    exact hf x t t' hs hc

theorem map {m : Rd β} {g : β → γ} (h : RespAll nx m) : RespAll nx (m >>= fun b => Pure.pure (g b)) :=
  fun s s' hi => (h s s' hi).bind

theorem fail {e : DxfErr} : RespAll nx (Rd.fail e : Rd β) :=
  fun _ _ _ _ => ⟨rfl, fun a ha => by cases ha⟩

theorem ite {c : Prop} [Decidable c] {a b : Rd β} (ha : RespAll nx a) (hb : RespAll nx b) :
    RespAll nx (if c then a else b) := by
  by_cases h : c
  · rw [if_pos h]; exact ha
  · rw [if_neg h]; exact hb

theorem withFuel {f : Nat → Rd β} (h : ∀ k, RespAll nx (f k)) (hm : Mono f) :
    RespAll nx (Rd.withFuel f) := by
  intro s s' hi hc
  rw [Rd.run_withFuel] at hc ⊢
  rw [Rd.run_withFuel]
  have h1 := h (s.length + 1) s s' hi hc
  have h2 : f (s'.length + 1) s' = f (s.length + 1) s' :=
    hm.le (Nat.succ_le_succ hi.length) s' (h1.calm hc)
  rw [h2]
  exact h1

end RespAll

/-! ### Entities -/

/-- The rest of a stream that ends with a tail. -/
theorem split_tail {c : List CodePair} {p : CodePair} {t u z w : Stream} (hw : t = w ++ z)
    (h : u ++ z = toStream c ++ some (.ok p) :: t) : u = toStream c ++ some (.ok p) :: w := by
  subst hw
  exact List.append_cancel_right (h.trans (by simp))

/-- What is done with an entity whose type has been read. -/
def entityBody (fuel : Nat) (s : Str) : Rd (Option Flat) :=
  match EName.ofType s with
  | none => do
    swallowItem
    readEntity fuel
  | some k => do
    let st ← Rd.withFuel fun fuel =>
      itemLoop k.kind.eof k.step fuel (Mode.start, Entry.dflt k.decls)
    match k.kind.sub st.1 with
    | some n => return some ⟨k, n, { st.2 with fields := st.2.fields.finish }⟩
    | none => readEntity fuel

theorem readEntity_open (fuel : Nat) (c : List CodePair) (hc : ∀ q ∈ c, q.code = 999) (p : CodePair)
    (hp : p.code = 0) (s : Str) (hv : p.assertString = .ok s)
    (he : ¬ (s = str!"ENDSEC" ∨ s = str!"ENDBLK")) (t : Stream) :
    readEntity (fuel + 1) (toStream c ++ some (.ok p) :: t) = entityBody fuel s t := by
  unfold readEntity
  refine (Rd.bind_ok (next_comments c hc p (by omega) _)).trans ?_
  rw [if_pos hp]
  refine (Rd.bind_ok (m := Rd.lift p.assertString) (a := s) (s := _) (s' := _)
    (by unfold Rd.lift; rw [hv])).trans ?_
  rw [if_neg he]
  rfl

theorem readEntity_inv {fuel : Nat} {s t : Stream} {x : Flat}
    (h : readEntity (fuel + 1) s = (.ok (some x), t)) : ∃ (c : List CodePair) (p : CodePair) (n : Str)
      (y : Stream), (∀ q ∈ c, q.code = 999) ∧ p.code = 0 ∧ p.assertString = .ok n ∧
      ¬ (n = str!"ENDSEC" ∨ n = str!"ENDBLK") ∧ s = toStream c ++ some (.ok p) :: y ∧
      entityBody fuel n y = (.ok (some x), t) := by
  unfold readEntity at h
  obtain ⟨p, y, h1, h2⟩ := Rd.bind_inv h
  obtain ⟨c, hc, hs, hp9⟩ := Rd.next_ok h1
  by_cases hp : p.code = 0
  swap
  · rw [if_neg hp] at h2; cases h2
  rw [if_pos hp] at h2
  obtain ⟨n, y', h3, h4⟩ := Rd.bind_inv h2
  unfold Rd.lift at h3
  obtain ⟨hv, hy⟩ := Prod.mk.inj h3
  subst hy
  by_cases he : n = str!"ENDSEC" ∨ n = str!"ENDBLK"
  · rw [if_pos he] at h4; cases h4
  rw [if_neg he] at h4
  exact ⟨c, p, n, y, hc, hp, hv, he, hs, h4⟩

theorem readEntity_pass (x : Flat) (fuel : Nat) : ∀ (u v : Stream) (q : CodePair) (z : Stream)
    (q' : CodePair) (z' : Stream), Fine false (u ++ some (.ok q) :: z) → q.code = 0 →
    q'.code = 0 → z.length ≤ z'.length →
    readEntity fuel (u ++ some (.ok q) :: z) = (.ok (some x), v ++ some (.ok q) :: z) →
    readEntity fuel (u ++ some (.ok q') :: z') = (.ok (some x), v ++ some (.ok q') :: z') := by
  induction fuel with
  | zero => intro u v q z q' z' _ _ _ _ h; cases h
  | succ fuel ih =>
    intro u v q z q' z' hfi hq hq' hl h
    obtain ⟨c, p, s1, t', hc, hp, hv, he, hs, h4⟩ := readEntity_inv h
    have hft : Fine false t' := hfi.suffix (by
      rw [hs]; exact (List.suffix_cons _ _).trans (List.suffix_append _ _))
    have go : ∀ w : Stream, t' = w ++ some (.ok q) :: z →
        readEntity (fuel + 1) (u ++ some (.ok q') :: z') =
          entityBody fuel s1 (w ++ some (.ok q') :: z') := by
      intro w hw
      rw [split_tail hw hs, List.append_assoc, List.cons_append]
      exact readEntity_open fuel c hc p hp s1 hv he _
    unfold entityBody at h4 go
    cases hk : EName.ofType s1 with
    | none =>
      simp only [hk] at h4 go
      obtain ⟨_, t2, h5, h6⟩ := Rd.bind_inv h4
      have hf2 : Fine false t2 := hft.suffix (by
        have := swallowItem_loc.suffix t' hft; rwa [h5] at this)
      have k1 := (readEntity_loc fuel).suffix t2 hf2
      rw [h6] at k1
      obtain ⟨w2', hw2⟩ := k1
      have hw2 : t2 = (w2' ++ v) ++ some (.ok q) :: z := by rw [← hw2]; simp
      have k2 := swallowItem_loc.suffix t' hft
      rw [h5] at k2
      obtain ⟨w1', hw1⟩ := k2
      have hw1 : t' = (w1' ++ (w2' ++ v)) ++ some (.ok q) :: z := by rw [← hw1, hw2]; simp
      rw [go _ hw1]
      have k3 := swallowItem_locC.pass (u := w1' ++ (w2' ++ v)) (v := w2' ++ v) (q := q) (z := z)
        (q' := q') (z' := z') (a := ()) (hw1 ▸ hft) hq hq' hl (by rw [← hw1, ← hw2]; exact h5)
      refine (Rd.bind_ok k3).trans ?_
      exact ih _ _ q z q' z' (hw2 ▸ hf2) hq hq' hl (by rw [← hw2]; exact h6)
    | some k =>
      simp only [hk] at h4 go
      obtain ⟨st, t2, h5, h6⟩ := Rd.bind_inv h4
      have hloc := item_loc k.kind.eof k.step_loc (Mode.start, Entry.dflt k.decls)
      have hlocC := item_locC k.kind.eof (fun p st => k.step_locC zero_stops p st)
        (Mode.start, Entry.dflt k.decls)
      have hf2 : Fine false t2 := hft.suffix (by
        have := hloc.suffix t' hft; rwa [h5] at this)
      have k0 : v ++ some (.ok q) :: z <:+ t2 := by
        cases hsub : k.kind.sub st.1 with
        | some n => rw [hsub] at h6; cases h6; exact List.suffix_refl _
        | none =>
          rw [hsub] at h6
          replace h6 : readEntity fuel t2 = _ := h6
          have := (readEntity_loc fuel).suffix t2 hf2
          rwa [h6] at this
      obtain ⟨w2', hw2⟩ := k0
      have hw2 : t2 = (w2' ++ v) ++ some (.ok q) :: z := by rw [← hw2]; simp
      have k2 := hloc.suffix t' hft
      rw [h5] at k2
      obtain ⟨w1', hw1⟩ := k2
      have hw1 : t' = (w1' ++ (w2' ++ v)) ++ some (.ok q) :: z := by rw [← hw1, hw2]; simp
      rw [go _ hw1]
      have k3 := hlocC.pass (u := w1' ++ (w2' ++ v)) (v := w2' ++ v) (q := q) (z := z)
        (q' := q') (z' := z') (a := st) (hw1 ▸ hft) hq hq' hl (by rw [← hw1, ← hw2]; exact h5)
      refine (Rd.bind_ok k3).trans ?_
      cases hsub : k.kind.sub st.1 with
      | some n =>
        rw [hsub] at h6
        have e1 := (Prod.mk.inj h6).1
        have e2 := (Prod.mk.inj h6).2
        rw [hw2] at e2
        have e3 := List.append_cancel_right e2
        dsimp only
        rw [e3]
        exact Prod.ext e1 rfl
      | none =>
        rw [hsub] at h6
        exact ih _ _ q z q' z' (hw2 ▸ hf2) hq hq' hl (by rw [← hw2]; exact h6)

theorem nextEntity_some {s t : Stream} {x : Flat} :
    nextEntity s = (.ok (some x), t) ↔ readEntity (s.length + 1) s = (.ok (some x), t) := by
  have key : nextEntity s = (.ok (some x), t) ↔ Rd.withFuel readEntity s = (.ok (some x), t) := by
    unfold nextEntity
    rcases Rd.withFuel readEntity s with ⟨e | a, s'⟩
    · cases e <;> simp
    · simp
  rw [key, Rd.run_withFuel]

theorem nextEntity_ok : NextOk nextEntity := by
  refine ⟨fun s x t hs h => ?_, fun x u v q z q' z' hfi hq hq' hl h => ?_⟩
  · have := nextEntity_loc.suffix s hs
    rwa [h] at this
  · rw [nextEntity_some] at h ⊢
    have h1 := readEntity_pass x _ u v q z q' z' hfi hq hq' hl h
    rw [← h1]
    refine readEntity_mono.le ?_ _ ?_
    · simp only [List.length_append, List.length_cons]; omega
    · rw [h1]; exact Calm.ok

theorem nextSlot_resp (slot : Option Flat) : Resp nextEntity (nextSlot slot) := by
  cases slot with
  | none => exact .item
  | some x => exact .pure

theorem swallowSeqend_resp (slot : Option Flat) : Resp nextEntity (swallowSeqend slot) := by
  refine .bind (nextSlot_resp _) fun a => ?_
  cases a with
  | none => exact .pure
  | some x =>
    dsimp only
    split <;> exact .pure

theorem takeMText_resp (slot : Option Flat) : Resp nextEntity (takeMText slot) := by
  unfold takeMText
  refine .bind (nextSlot_resp _) fun a => ?_
  split <;> exact .pure

theorem gatherAtts_resp (fuel : Nat) : ∀ slot, Resp nextEntity (gatherAtts fuel slot) := by
  induction fuel with
  | zero => exact fun _ => .fail
  | succ fuel ih =>
    intro slot
    unfold gatherAtts
    refine .bind (nextSlot_resp _) fun a => ?_
    split
    · exact .bind (ih _) fun _ => .pure
    · exact .pure
    · exact .pure

theorem gatherVerts_resp (fuel : Nat) : ∀ slot, Resp nextEntity (gatherVerts fuel slot) := by
  induction fuel with
  | zero => exact fun _ => .fail
  | succ fuel ih =>
    intro slot
    unfold gatherVerts
    refine .bind (nextSlot_resp _) fun a => ?_
    split
    · exact .bind (ih _) fun _ => .pure
    · exact .pure
    · exact .pure

theorem collectEntities_resp (fuel : Nat) :
    ∀ slot, RespAll nextEntity (collectEntities fuel slot) := by
  induction fuel with
  | zero => exact fun _ => .fail
  | succ fuel ih =>
    have body : ∀ x : Flat, RespAll nextEntity (if x.kind = .attribute ∨
        x.kind = .attributeDefinition then do
        let (m, s) ← takeMText none
        let rest ← collectEntities fuel s
        return withMText x m :: rest
      else if x.wantsAtts then do
        let (as, s) ← Rd.withFuel fun f => gatherAtts f none
        let s' ← swallowSeqend s
        let rest ← collectEntities fuel s'
        return ⟨x, { Extra.dflt with atts := as }⟩ :: rest
      else if x.kind = .polyline then do
        let (vs, s) ← Rd.withFuel fun f => gatherVerts f none
        let s' ← swallowSeqend s
        let rest ← collectEntities fuel s'
        return ⟨x, { Extra.dflt with verts := vs }⟩ :: rest
      else do
        let rest ← collectEntities fuel none
        return ⟨x, Extra.dflt⟩ :: rest) := fun x =>
      .ite (.bind (takeMText_resp _) fun _ => .map (ih _))
        (.ite (.bind (.withFuel (fun _ => gatherAtts_resp _ _) (gatherAtts_mono _)) fun _ =>
            .bind (swallowSeqend_resp _) fun _ => .map (ih _))
          (.ite (.bind (.withFuel (fun _ => gatherVerts_resp _ _) (gatherVerts_mono _)) fun _ =>
              .bind (swallowSeqend_resp _) fun _ => .map (ih _))
            (.map (ih _))))
    intro slot
    unfold collectEntities
    cases slot with
    | none =>
      exact RespAll.item (fun _ => rfl) fun x => body x
    | some x =>
      exact body x

theorem readEntities_resp : RespAll nextEntity readEntities :=
  .withFuel (fun _ => collectEntities_resp _ _) (collectEntities_mono _)

end Dxf
