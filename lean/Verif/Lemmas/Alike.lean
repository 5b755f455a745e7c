import Verif.Lemmas.LocalRead

/-! Readers of items look at the pair behind the item and put it back.  What they do does not depend
on which pair that is, as long as it has a suitable code. -/

namespace Dxf

/-- A reader that stops in front of a pair with a suitable code, perhaps after having looked at it,
does the same for every other such pair. -/
def LocalC {α : Type} (C : Int → Prop) (r : Rd α) : Prop :=
  ∀ (u : Stream) (q : CodePair) (z : Stream) (q' : CodePair) (z' : Stream),
    Fine false (u ++ some (.ok q) :: z) → C q.code → C q'.code → z.length ≤ z'.length →
    Calm (r (u ++ some (.ok q) :: z)).1 → (r (u ++ some (.ok q) :: z)).2 = some (.ok q) :: z →
    r (u ++ some (.ok q') :: z') = ((r (u ++ some (.ok q) :: z)).1, some (.ok q') :: z')

structure LocC {α : Type} (C : Int → Prop) (r : Rd α) : Prop where
  loc : Loc r
  here : LocalC C r

/-- The same for a reader that may put back the pair `p`. -/
structure LocCP {α : Type} (C : Int → Prop) (p : CodePair) (r : Rd α) : Prop where
  loc : LocP p r
  here : LocalC C r

/-- Two readers that put back one pair each do the same otherwise. -/
def Alike {α : Type} (p p' : CodePair) (r r' : Rd α) : Prop :=
  ∀ z z' : Stream, Fine false z → z.length ≤ z'.length → Calm (r z).1 →
    (r z).2 = some (.ok p) :: z → r' z' = ((r z).1, some (.ok p') :: z')

namespace Alike

variable {α : Type} {p p' : CodePair}

theorem drop {r r' : Rd α} (h : Loc r) : Alike p p' r r' := by
  intro z z' hz _ _ he
  have := (h.suffix z hz).length_le
  rw [he] at this
  simp at this

theorem back {a : α} : Alike p p' (Rd.putBack p >>= fun _ => pure a)
    (Rd.putBack p' >>= fun _ => pure a) := fun _ _ _ _ _ _ => rfl

theorem back' : Alike p p' (Rd.putBack p) (Rd.putBack p') := fun _ _ _ _ _ _ => rfl

theorem ite {c c' : Prop} [Decidable c] [Decidable c'] {a b a' b' : Rd α} (h : c ↔ c')
    (ha : c → Alike p p' a a') (hb : ¬ c → Alike p p' b b') :
    Alike p p' (if c then a else b) (if c' then a' else b') := by
  by_cases hc : c
  · rw [if_pos hc, if_pos (h.mp hc)]; exact ha hc
  · rw [if_neg hc, if_neg fun hc' => hc (h.mpr hc')]; exact hb hc

end Alike

namespace LocC

variable {α β : Type} {C : Int → Prop}

private theorem stay {α : Type} {u : Stream} {q : CodePair} {z : Stream} {x : α}
    (h : u ++ some (.ok q) :: z = some (.ok q) :: z) : u = [] := by
  have := congrArg List.length h
  simp only [List.length_append, List.length_cons] at this
  exact List.eq_nil_of_length_eq_zero (by omega)

theorem pure {a : α} : LocC C (Pure.pure a : Rd α) :=
  ⟨.pure, fun u q z q' z' _ _ _ _ _ h => by rw [stay (x := a) h]; rfl⟩

theorem fail {e : DxfErr} : LocC C (Rd.fail e : Rd α) :=
  ⟨.fail, fun u q z q' z' _ _ _ _ _ h => by rw [stay (x := e) h]; rfl⟩

theorem lift {x : Except DxfErr α} : LocC C (Rd.lift x) :=
  ⟨.lift, fun u q z q' z' _ _ _ _ _ h => by rw [stay (x := x) h]; rfl⟩

theorem bind {m : Rd α} {f : α → Rd β} (hm : LocC C m) (hf : ∀ a, LocC C (f a)) :
    LocC C (m >>= f) := by
  refine ⟨.bind hm.loc fun a => (hf a).loc, ?_⟩
  intro u q z q' z' hfi hq hq' hl hc h
  rw [Rd.run_bind] at hc h ⊢
  have h1 := hm.loc.suffix _ hfi
  have h2 := hm.here u q z q' z' hfi hq hq' hl
  have h2' := hm.loc.loc u (some (.ok q) :: z) (some (.ok q') :: z')
  rcases hms : m (u ++ some (.ok q) :: z) with ⟨x, s⟩
  rw [hms] at hc h h1 h2 h2'
  rw [Rd.run_bind, hms]
  cases x with
  | error e => rw [h2 (fun hx => hc (by cases hx; rfl)) h]
  | ok a =>
    dsimp only at h h1 h2 h2' hc ⊢
    have h3 := (hf a).loc.suffix s (hfi.suffix h1)
    rw [h] at h3
    obtain ⟨v, rfl⟩ := h3
    by_cases hv : v = []
    · subst hv
      rw [h2 Calm.ok rfl]
      exact (hf a).here [] q z q' z' (hfi.suffix h1) hq hq' hl hc h
    · rw [h2' v hfi (by simp) (by simpa using hl) hv Calm.ok rfl]
      exact (hf a).here v q z q' z' (hfi.suffix h1) hq hq' hl hc h

theorem ite {c : Prop} [Decidable c] {a b : Rd α} (ha : c → LocC C a) (hb : ¬ c → LocC C b) :
    LocC C (if c then a else b) := by
  by_cases h : c
  · rw [if_pos h]; exact ha h
  · rw [if_neg h]; exact hb h

theorem withFuel {f : Nat → Rd α} (h : ∀ k, LocC C (f k)) (hm : Mono f) :
    LocC C (Rd.withFuel f) := by
  refine ⟨.withFuel (fun k => (h k).loc) hm, ?_⟩
  intro u q z q' z' hfi hq hq' hl hc he
  rw [Rd.run_withFuel] at hc he ⊢
  rw [Rd.run_withFuel]
  have h1 := (h ((u ++ some (.ok q) :: z).length + 1)).here u q z q' z' hfi hq hq' hl hc he
  rw [← h1]
  refine hm.le ?_ _ ?_
  · simp only [List.length_append, List.length_cons]; omega
  · rw [h1]; exact hc

theorem next? {f : Option CodePair → Rd β} (hC : ¬ C 999) (h0 : LocC C (f none))
    (h1 : ∀ p, LocCP C p (f (some p)))
    (h2 : ∀ p p', C p.code → C p'.code → Alike p p' (f (some p)) (f (some p'))) :
    LocC C (Rd.next? >>= f) := by
  refine ⟨.next? h0.loc fun p => (h1 p).loc, ?_⟩
  intro u q z q' z' hfi hq hq' hl hc h
  obtain ⟨h3, -⟩ := Stream.next_suffix (u ++ some (.ok q) :: z)
  have run : ∀ (s : Stream) (x : Item) (t : Stream), s.next = (x, t) → (Rd.next? >>= f) s =
      match x with
      | none => f none t
      | some (.ok p) => f (some p) t
      | some (.error e) => (.error e, t) := by
    intro s x t hs
    rw [Rd.run_bind, Rd.next?, hs]
    rcases x with _ | (e | p) <;> rfl
  -- the next pair is in `u`, or it is `q`
  by_cases hu : ∀ it ∈ u, isComment it = true
  · have hn : ∀ (q : CodePair) (z : Stream), C q.code →
        (u ++ some (.ok q) :: z).next = (some (.ok q), z) := by
      intro q z hq
      clear hfi hc h h3 run
      induction u with
      | nil =>
        rw [List.nil_append, Stream.next, if_neg]
        intro hcm
        simp only [isComment, decide_eq_true_eq] at hcm
        exact hC (hcm ▸ hq)
      | cons x u ih =>
        rw [List.cons_append, Stream.next, if_pos (hu x (by simp))]
        exact ih fun it hm => hu it (by simp [hm])
    rw [run _ _ _ (hn q z hq)] at hc h ⊢
    rw [run _ _ _ (hn q' z' hq')]
    exact h2 q q' hq hq' z z' (hfi.suffix ((List.suffix_cons _ _).trans (List.suffix_append _ _)))
      hl hc h
  · have hn : ∃ (x : Item) (v : Stream), isComment x = false ∧ v <:+ u ∧
        ∀ y : Stream, (u ++ y).next = (x, v ++ y) := by
      clear hfi hc h h3 run
      induction u with
      | nil => simp at hu
      | cons x u ih =>
        by_cases hx : isComment x = true
        · have : ¬ ∀ it ∈ u, isComment it = true := fun hh => hu fun it hm => by
            rcases List.mem_cons.mp hm with rfl | hm
            · exact hx
            · exact hh it hm
          obtain ⟨y, v, h1, h2, h3⟩ := ih this
          refine ⟨y, v, h1, h2.trans (List.suffix_cons _ _), fun w => ?_⟩
          rw [List.cons_append, Stream.next, if_pos hx]
          exact h3 w
        · refine ⟨x, u, by simpa using hx, List.suffix_cons _ _, fun w => ?_⟩
          rw [List.cons_append, Stream.next, if_neg hx]
    obtain ⟨x, v, _, hv, hn⟩ := hn
    have hfv : Fine false (v ++ some (.ok q) :: z) := by
      rw [hn] at h3; exact hfi.suffix h3
    rw [run _ _ _ (hn _)] at hc h ⊢
    rw [run _ _ _ (hn _)]
    rcases x with _ | (e | p)
    · exact h0.here v q z q' z' hfv hq hq' hl hc h
    · dsimp only at h
      rw [stay (x := e) h]
      rfl
    · exact (h1 p).here v q z q' z' hfv hq hq' hl hc h

theorem next {f : CodePair → Rd β} (hC : ¬ C 999) (h1 : ∀ p, LocCP C p (f p))
    (h2 : ∀ p p', C p.code → C p'.code → Alike p p' (f p) (f p')) :
    LocC C (Rd.next >>= f) := by
  have : (Rd.next >>= f) = (Rd.next? >>= fun x => match x with
      | none => Rd.fail .unexpectedEndOfInput
      | some p => f p) := by
    funext s
    rw [Rd.run_bind, Rd.run_bind, Rd.next, Rd.next?]
    rcases s.next with ⟨x, s'⟩
    rcases x with _ | (e | p) <;> rfl
  rw [this]
  exact next? hC .fail h1 h2

/-- A reader that does not put back what it has read. -/
theorem nextDrop {f : CodePair → Rd β} (hC : ¬ C 999) (h : ∀ p, LocC C (f p)) :
    LocC C (Rd.next >>= f) :=
  next hC (fun p => ⟨.drop (h p).loc, (h p).here⟩) fun p _ _ _ => .drop (h p).loc

end LocC

namespace LocCP

variable {α β : Type} {C : Int → Prop} {p : CodePair}

theorem drop {r : Rd α} (h : LocC C r) : LocCP C p r := ⟨.drop h.loc, h.here⟩

/-- The pair is put back, and nothing else is read. -/
theorem back {a : α} : LocCP C p (Rd.putBack p >>= fun _ => Pure.pure a) :=
  ⟨.bindBack .pure, fun u q z q' z' _ _ _ _ _ h => by
    replace h : some (.ok p) :: (u ++ some (.ok q) :: z) = some (.ok q) :: z := h
    have := congrArg List.length h
    simp only [List.length_append, List.length_cons] at this
    omega⟩

theorem bindBack {f : Unit → Rd β} (hf : LocC C (f ())) : LocCP C p (Rd.putBack p >>= f) :=
  ⟨.bindBack hf.loc, by
    intro u q z q' z' hfi hq hq' hl hc h
    refine hf.here (some (.ok p) :: u) q z q' z' ?_ hq hq' hl hc h
    intro it hm
    rcases List.mem_cons.mp hm with rfl | hm
    · simp
    · exact hfi it hm⟩

theorem bind {m : Rd α} {f : α → Rd β} (hm : LocC C m) (hf : ∀ a, LocC C (f a)) :
    LocCP C p (m >>= f) := drop (LocC.bind hm hf)

theorem ite {c : Prop} [Decidable c] {a b : Rd α} (ha : c → LocCP C p a) (hb : ¬ c → LocCP C p b) :
    LocCP C p (if c then a else b) := by
  by_cases h : c
  · rw [if_pos h]; exact ha h
  · rw [if_neg h]; exact hb h

theorem bindLift {x : Except DxfErr α} {f : α → Rd β} (hf : ∀ a, LocCP C p (f a)) :
    LocCP C p (Rd.lift x >>= f) := by
  cases x with
  | ok a => exact hf a
  | error e => exact drop (LocC.fail (α := β) (e := e))

end LocCP

end Dxf
