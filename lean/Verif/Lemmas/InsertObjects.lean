import Verif.Lemmas.InsertMore

/-! Unknown objects. -/

namespace Dxf

/-- What is done with an object whose type has been read. -/
def objectBody (fuel : Nat) (s : Str) : Rd (Option Object) :=
  match OName.ofType s with
  | none => do
    swallowItem
    readObject fuel
  | some k => do
    let st ← Rd.withFuel fun fuel =>
      itemLoop k.kind.eof k.step fuel (OMode.start, Entry.dflt k.decls, {})
    return some (Object.post ⟨k, st.2.1, st.2.2.extra⟩)

theorem readObject_open (fuel : Nat) (c : List CodePair) (hc : ∀ q ∈ c, q.code = 999) (p : CodePair)
    (hp : p.code = 0) (s : Str) (hv : p.assertString = .ok s)
    (he : ¬ (s = str!"ENDSEC" ∨ s = str!"ENDBLK")) (t : Stream) :
    readObject (fuel + 1) (toStream c ++ some (.ok p) :: t) = objectBody fuel s t := by
  unfold readObject
  refine (Rd.bind_ok (next_comments c hc p (by omega) _)).trans ?_
  rw [if_pos hp]
  refine (Rd.bind_ok (m := Rd.lift p.assertString) (a := s) (s := _) (s' := _)
    (by unfold Rd.lift; rw [hv])).trans ?_
  rw [if_neg he]
  rfl

theorem readObject_inv {fuel : Nat} {s t : Stream} {x : Object}
    (h : readObject (fuel + 1) s = (.ok (some x), t)) : ∃ (c : List CodePair) (p : CodePair)
      (n : Str) (y : Stream), (∀ q ∈ c, q.code = 999) ∧ p.code = 0 ∧ p.assertString = .ok n ∧
      ¬ (n = str!"ENDSEC" ∨ n = str!"ENDBLK") ∧ s = toStream c ++ some (.ok p) :: y ∧
      objectBody fuel n y = (.ok (some x), t) := by
  unfold readObject at h
  obtain ⟨p, y, h1, h2⟩ := Rd.bind_inv h
  obtain ⟨c, hc, hs, hp9⟩ := Rd.next_ok h1
  by_cases hp : p.code = 0
  swap
  · rw [if_neg hp] at h2; cases h2
  rw [if_pos hp] at h2
  obtain ⟨n, y', h3, h4⟩ := Rd.bind_inv h2
  unfold Rd.lift at h3
  obtain ⟨hv, hy⟩ := Prod.mk.inj h3
  subst hy
  by_cases he : n = str!"ENDSEC" ∨ n = str!"ENDBLK"
  · rw [if_pos he] at h4; cases h4
  rw [if_neg he] at h4
  exact ⟨c, p, n, y, hc, hp, hv, he, hs, h4⟩

theorem readObject_pass (x : Object) (fuel : Nat) : ∀ (u v : Stream) (q : CodePair) (z : Stream)
    (q' : CodePair) (z' : Stream), Fine false (u ++ some (.ok q) :: z) → q.code = 0 →
    q'.code = 0 → z.length ≤ z'.length →
    readObject fuel (u ++ some (.ok q) :: z) = (.ok (some x), v ++ some (.ok q) :: z) →
    readObject fuel (u ++ some (.ok q') :: z') = (.ok (some x), v ++ some (.ok q') :: z') := by
  induction fuel with
  | zero => intro u v q z q' z' _ _ _ _ h; cases h
  | succ fuel ih =>
    intro u v q z q' z' hfi hq hq' hl h
    obtain ⟨c, p, s1, t', hc, hp, hv, he, hs, h4⟩ := readObject_inv h
    have hft : Fine false t' := hfi.suffix (by
      rw [hs]; exact (List.suffix_cons _ _).trans (List.suffix_append _ _))
    have go : ∀ w : Stream, t' = w ++ some (.ok q) :: z →
        readObject (fuel + 1) (u ++ some (.ok q') :: z') =
          objectBody fuel s1 (w ++ some (.ok q') :: z') := by
      intro w hw
      rw [split_tail hw hs, List.append_assoc, List.cons_append]
      exact readObject_open fuel c hc p hp s1 hv he _
    unfold objectBody at h4 go
    cases hk : OName.ofType s1 with
    | none =>
      simp only [hk] at h4 go
      obtain ⟨_, t2, h5, h6⟩ := Rd.bind_inv h4
      have hf2 : Fine false t2 := hft.suffix (by
        have := swallowItem_loc.suffix t' hft; rwa [h5] at this)
      have k1 := (readObject_loc fuel).suffix t2 hf2
      rw [h6] at k1
      obtain ⟨w2', hw2⟩ := k1
      have hw2 : t2 = (w2' ++ v) ++ some (.ok q) :: z := by rw [← hw2]; simp
      have k2 := swallowItem_loc.suffix t' hft
      rw [h5] at k2
      obtain ⟨w1', hw1⟩ := k2
      have hw1 : t' = (w1' ++ (w2' ++ v)) ++ some (.ok q) :: z := by rw [← hw1, hw2]; simp
      rw [go _ hw1]
      have k3 := swallowItem_locC.pass (u := w1' ++ (w2' ++ v)) (v := w2' ++ v) (q := q) (z := z)
        (q' := q') (z' := z') (a := ()) (hw1 ▸ hft) hq hq' hl (by rw [← hw1, ← hw2]; exact h5)
      refine (Rd.bind_ok k3).trans ?_
      exact ih _ _ q z q' z' (hw2 ▸ hf2) hq hq' hl (by rw [← hw2]; exact h6)
    | some k =>
      simp only [hk] at h4 go
      obtain ⟨st, t2, h5, h6⟩ := Rd.bind_inv h4
      obtain ⟨h7, rfl⟩ := Prod.mk.inj h6
      have hloc := item_loc k.kind.eof k.step_loc (OMode.start, Entry.dflt k.decls, {})
      have hlocC := item_locC k.kind.eof (fun p st => k.step_locC p st)
        (OMode.start, Entry.dflt k.decls, {})
      have k2 := hloc.suffix t' hft
      rw [h5] at k2
      obtain ⟨w1', hw1⟩ := k2
      have hw1 : t' = (w1' ++ v) ++ some (.ok q) :: z := by rw [← hw1]; simp
      rw [go _ hw1]
      have k3 := hlocC.pass (u := w1' ++ v) (v := v) (q := q) (z := z)
        (q' := q') (z' := z') (a := st) (hw1 ▸ hft) hq hq' hl (by rw [← hw1]; exact h5)
      refine (Rd.bind_ok k3).trans ?_
      exact Prod.ext h7 rfl

theorem nextObject_take {s t : Stream} {x : Object} :
    nextObject s = (.ok (some x), t) ↔ readObject (s.length + 1) s = (.ok (some x), t) := by
  have key : nextObject s = (.ok (some x), t) ↔ Rd.withFuel readObject s = (.ok (some x), t) := by
    unfold nextObject
    rcases Rd.withFuel readObject s with ⟨e | a, s'⟩
    · cases e <;> simp
    · simp
  rw [key, Rd.run_withFuel]

theorem nextObject_ok : NextOk nextObject := by
  refine ⟨fun s x t hs h => ?_, fun x u v q z q' z' hfi hq hq' hl h => ?_⟩
  · have := nextObject_loc.suffix s hs
    rwa [h] at this
  · rw [nextObject_take] at h ⊢
    have h1 := readObject_pass x _ u v q z q' z' hfi hq hq' hl h
    rw [← h1]
    refine readObject_mono.le ?_ _ ?_
    · simp only [List.length_append, List.length_cons]; omega
    · rw [h1]; exact Calm.ok

theorem collectObjects_resp (fuel : Nat) : RespAll nextObject (collectObjects fuel) := by
  induction fuel with
  | zero => exact .fail
  | succ fuel ih => exact RespAll.item (fun _ => rfl) fun x => .map ih

theorem readObjects_resp : RespAll nextObject readObjects :=
  .withFuel (fun _ => collectObjects_resp _) collectObjects_mono

theorem readObject_unknown {U : List CodePair} (hU : UnknownObject U) (q : CodePair)
    (hq : q.code = 0) (z : Stream) (k : Nat) :
    readObject (k + 1) (toStream U ++ some (.ok q) :: z) = readObject k (some (.ok q) :: z) := by
  obtain ⟨op, x, content, hop, hx, he, hcon⟩ := hU
  have h1 := readObject_open k [] (by simp) op hop.1 x
    (by unfold CodePair.assertString; rw [hop.2]) (by simp [he])
    (toStream content ++ some (.ok q) :: z)
  rw [show toStream (op :: content) ++ some (.ok q) :: z =
    toStream [] ++ some (.ok op) :: (toStream content ++ some (.ok q) :: z) by simp [toStream], h1]
  unfold objectBody
  simp only [hx]
  exact Rd.bind_ok (swallow_item content hcon q hq z)

theorem nextObject_unknown {U : List CodePair} (hU : UnknownObject U) (q : CodePair)
    (hq : q.code = 0) (z : Stream) (hc : Calm (nextObject (some (.ok q) :: z)).1) :
    nextObject (toStream U ++ some (.ok q) :: z) = nextObject (some (.ok q) :: z) := by
  have hc' : Calm (Rd.withFuel readObject (some (.ok q) :: z)).1 := by
    unfold nextObject at hc
    rcases hr : Rd.withFuel readObject (some (.ok q) :: z) with ⟨e | a, t⟩
    · rw [hr] at hc
      cases e <;> first | exact absurd rfl hc | simp [Calm]
    · exact Calm.ok
  have hn : 1 ≤ U.length := by
    obtain ⟨op, x, content, _⟩ := hU; simp
  have : Rd.withFuel readObject (toStream U ++ some (.ok q) :: z) =
      Rd.withFuel readObject (some (.ok q) :: z) := by
    rw [Rd.run_withFuel] at hc' ⊢
    rw [Rd.run_withFuel, readObject_unknown hU q hq z]
    exact readObject_mono.le (by
      simp only [List.length_append, List.length_cons, toStream_length]; omega) _ hc'
  unfold nextObject
  rw [this]

end Dxf
