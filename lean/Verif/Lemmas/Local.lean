import Verif.Lemmas.NiceFile

/-! A reader that stops in front of the end of a prefix of the stream does the same whatever comes
after that prefix, and a loop that is allowed more rounds than it needs does the same. -/

namespace Dxf

/-! ### More fuel -/

/-- The second reader does what the first does where that does not run out of fuel. -/
def Below {α : Type} (r r' : Rd α) : Prop := ∀ s, Calm (r s).1 → r' s = r s

namespace Below

variable {α β : Type}

theorem rfl {r : Rd α} : Below r r := fun _ _ => Eq.refl _

theorem trans {r r' r'' : Rd α} (h : Below r r') (h' : Below r' r'') : Below r r'' := fun s hs =>
  (h' s (by rw [h s hs]; exact hs)).trans (h s hs)

theorem out {r : Rd α} : Below (Rd.fail .outOfFuel) r := fun s hs => absurd (Eq.refl _) hs

theorem bind {m m' : Rd α} {f f' : α → Rd β} (hm : Below m m') (hf : ∀ a, Below (f a) (f' a)) :
    Below (m >>= f) (m' >>= f') := by
  intro s hs
  rw [Rd.run_bind] at hs ⊢
  rw [Rd.run_bind]
  rcases hms : m s with ⟨x, t⟩
  rw [hms] at hs
  have h := hm s
  rw [hms] at h
  cases x with
  | error e =>
    have hc : Calm (.error e : Except DxfErr α) := fun hc => hs (by cases hc; exact Eq.refl _)
    rw [h hc]
  | ok a =>
    rw [h Calm.ok]
    exact hf a t hs

theorem ite {c : Prop} [Decidable c] {a b a' b' : Rd α} (ha : Below a a') (hb : Below b b') :
    Below (if c then a else b) (if c then a' else b') := by
  by_cases h : c
  · rw [if_pos h, if_pos h]; exact ha
  · rw [if_neg h, if_neg h]; exact hb

theorem withFuel {f f' : Nat → Rd α} (h : ∀ k, Below (f k) (f' k)) :
    Below (Rd.withFuel f) (Rd.withFuel f') := fun s hs => h _ s hs

end Below

/-- More fuel does not change what is done. -/
def Mono {α : Type} (f : Nat → Rd α) : Prop := ∀ k, Below (f k) (f (k + 1))

theorem Mono.le {α : Type} {f : Nat → Rd α} (h : Mono f) {k k' : Nat} (hk : k ≤ k') :
    Below (f k) (f k') := by
  induction hk with
  | refl => exact Below.rfl
  | step _ ih => exact ih.trans (h _)

/-- Takes two readers apart. -/
macro "below" : tactic => `(tactic| repeat' first
  | assumption
  | exact Below.rfl
  | exact Below.out
  | (refine Below.bind ?_ fun _ => ?_)
  | (refine Below.ite ?_ ?_)
  | split)

/-! ### More pairs -/

/-- A reader that stops in front of the end of `u` does the same for every continuation of `u`
that is not shorter. -/
def Local {α : Type} (r : Rd α) : Prop :=
  ∀ u z z' t : Stream, Fine false (u ++ z) → z ≠ [] → z.length ≤ z'.length → t ≠ [] →
    Calm (r (u ++ z)).1 → (r (u ++ z)).2 = t ++ z → r (u ++ z') = ((r (u ++ z)).1, t ++ z')

/-- The same with what is needed for sequences of readers. -/
structure Loc {α : Type} (r : Rd α) : Prop where
  nice : ∀ n, Nice false n r
  loc : Local r

/-- The same for a reader that may put back the pair `p`. -/
structure LocP {α : Type} (p : CodePair) (r : Rd α) : Prop where
  nice : ∀ n, NiceP false n p r
  loc : Local r

theorem Stream.next_local (u z z' t : Stream) (hz : z ≠ []) (h : (u ++ z).next.2 = t ++ z) :
    (u ++ z').next = ((u ++ z).next.1, t ++ z') := by
  induction u with
  | nil =>
    have h1 := Stream.next_length z
    have h2 := congrArg List.length h
    have : z.length ≠ 0 := by simpa using hz
    simp only [List.nil_append, List.length_append] at h1 h2
    omega
  | cons it r ih =>
    rw [List.cons_append, Stream.next] at h ⊢
    rw [List.cons_append, Stream.next]
    split
    · rename_i hc
      rw [if_pos hc] at h
      exact ih h
    · rename_i hc
      rw [if_neg hc] at h
      rw [List.append_cancel_right h]

namespace Loc

variable {α β : Type}

theorem suffix {r : Rd α} (h : Loc r) (s : Stream) (hs : Fine false s) : (r s).2 <:+ s :=
  (h.nice s.length s (Nat.le_refl _) hs).1

theorem pure {a : α} : Loc (Pure.pure a : Rd α) :=
  ⟨fun _ => Nice.pure, fun u z z' t _ _ _ _ _ h => by
    have := List.append_cancel_right h
    rw [← this]; rfl⟩

theorem fail {e : DxfErr} : Loc (Rd.fail e : Rd α) :=
  ⟨fun _ => Nice.fail (by simp), fun u z z' t _ _ _ _ _ h => by
    have := List.append_cancel_right h
    rw [← this]; rfl⟩

theorem lift {x : Except DxfErr α} : Loc (Rd.lift x) :=
  ⟨fun _ => Nice.lift (by simp), fun u z z' t _ _ _ _ _ h => by
    have := List.append_cancel_right h
    rw [← this]; rfl⟩

/-- A suffix of `u ++ z` that is longer than `z`. -/
theorem longer {u z s t : Stream} (hs : s <:+ u ++ z) (ht : t ++ z <:+ s) (hne : t ≠ []) :
    ∃ v, s = v ++ z ∧ v ≠ [] := by
  obtain ⟨k, hk⟩ := ht
  refine ⟨k ++ t, by rw [← hk]; simp, by simp [hne]⟩

theorem bind {m : Rd α} {f : α → Rd β} (hm : Loc m) (hf : ∀ a, Loc (f a)) : Loc (m >>= f) := by
  refine ⟨fun n => Nice.bind (hm.nice n) fun a => (hf a).nice n, ?_⟩
  intro u z z' t hfi hz hl ht hc h
  rw [Rd.run_bind] at hc h ⊢
  have h1 := hm.suffix _ hfi
  have h2 := hm.loc u z z'
  rcases hms : m (u ++ z) with ⟨x, s⟩
  rw [hms] at hc h h1 h2
  rw [Rd.run_bind, hms]
  cases x with
  | error e =>
    rw [h2 t hfi hz hl ht (fun hx => hc (by cases hx; rfl)) h]
  | ok a =>
    dsimp only at h h1 h2 hc ⊢
    have h3 := (hf a).suffix s (hfi.suffix h1)
    rw [h] at h3
    obtain ⟨v, rfl, hv⟩ := longer h1 h3 ht
    rw [h2 v hfi hz hl hv Calm.ok rfl]
    exact (hf a).loc v z z' t (hfi.suffix h1) hz hl ht hc h

theorem ite {c : Prop} [Decidable c] {a b : Rd α} (ha : c → Loc a) (hb : ¬ c → Loc b) :
    Loc (if c then a else b) := by
  by_cases h : c
  · rw [if_pos h]; exact ha h
  · rw [if_neg h]; exact hb h

theorem bite {c : Bool} {a b : Rd α} (ha : Loc a) (hb : Loc b) :
    Loc (bif c then a else b) := by
  cases c
  · exact hb
  · exact ha

theorem withFuel {f : Nat → Rd α} (h : ∀ k, Loc (f k)) (hm : Mono f) : Loc (Rd.withFuel f) := by
  refine ⟨fun n => Nice.withFuel fun k => (h _).nice _, ?_⟩
  intro u z z' t hfi hz hl ht hc he
  rw [Rd.run_withFuel] at hc he ⊢
  rw [Rd.run_withFuel]
  have h1 := (h ((u ++ z).length + 1)).loc u z z' t hfi hz hl ht hc he
  rw [← h1]
  refine hm.le ?_ _ ?_
  · simp only [List.length_append]; omega
  · rw [h1]; exact hc

theorem next? {f : Option CodePair → Rd β} (h0 : Loc (f none)) (h1 : ∀ p, LocP p (f (some p))) :
    Loc (Rd.next? >>= f) := by
  refine ⟨fun n => Nice.next? (h0.nice n) fun p => (h1 p).nice n, ?_⟩
  intro u z z' t hfi hz hl ht hc h
  obtain ⟨h2, h3⟩ := Stream.next_suffix (u ++ z)
  have h5 := Stream.next_local u z z'
  rw [Rd.run_bind, Rd.next?] at hc h ⊢
  rw [Rd.run_bind, Rd.next?]
  rcases hx : (u ++ z).next with ⟨x, s⟩
  rw [hx] at h2 h3 h5 hc h
  rcases x with _ | (e | p)
  · have h4 := h0.suffix s (hfi.suffix h2)
    dsimp only at h h4 hc
    rw [h] at h4
    obtain ⟨v, rfl, hv⟩ := longer h2 h4 ht
    rw [h5 v hz rfl]
    exact h0.loc v z z' t (hfi.suffix h2) hz hl ht hc h
  · dsimp only at h
    rw [h5 t hz h]
  · have h4 := h3 _ rfl
    have h6 := ((h1 p).nice (s.length + 1) s (Nat.le_refl _) (hfi.suffix h4)).1
    dsimp only at h h6 hc
    rw [h] at h6
    have h7 : ∃ v, s = v ++ z := by
      obtain ⟨k, hk⟩ := h6
      cases k with
      | nil =>
        cases t with
        | nil => exact absurd rfl ht
        | cons y t =>
          rw [List.nil_append, List.cons_append] at hk
          exact ⟨t, ((List.cons.inj hk).2).symm⟩
      | cons y k =>
        rw [List.cons_append] at hk
        exact ⟨k ++ t, by rw [← (List.cons.inj hk).2]; simp⟩
    obtain ⟨v, rfl⟩ := h7
    rw [h5 v hz rfl]
    exact (h1 p).loc v z z' t (hfi.suffix h2) hz hl ht hc h

theorem next {f : CodePair → Rd β} (h1 : ∀ p, LocP p (f p)) : Loc (Rd.next >>= f) := by
  have : (Rd.next >>= f) = (Rd.next? >>= fun x => match x with
      | none => Rd.fail .unexpectedEndOfInput
      | some p => f p) := by
    funext s
    rw [Rd.run_bind, Rd.run_bind, Rd.next, Rd.next?]
    rcases s.next with ⟨x, s'⟩
    rcases x with _ | (e | p) <;> rfl
  rw [this]
  exact next? .fail h1

end Loc

namespace LocP

variable {α β : Type} {p : CodePair}

theorem drop {r : Rd α} (h : Loc r) : LocP p r := ⟨fun n => NiceP.drop fun _ => h.nice _, h.loc⟩

theorem pure {a : α} : LocP p (Pure.pure a : Rd α) := drop Loc.pure
theorem fail {e : DxfErr} : LocP p (Rd.fail e : Rd α) := drop Loc.fail
theorem lift {x : Except DxfErr α} : LocP p (Rd.lift x) := drop Loc.lift

theorem bindLift {x : Except DxfErr α} {f : α → Rd β} (hf : ∀ a, LocP p (f a)) :
    LocP p (Rd.lift x >>= f) := by
  cases x with
  | ok a => exact hf a
  | error e => exact fail (α := β) (e := e)

theorem bind {m : Rd α} {f : α → Rd β} (hm : Loc m) (hf : ∀ a, Loc (f a)) : LocP p (m >>= f) :=
  drop (Loc.bind hm hf)

theorem putBack : LocP p (Rd.putBack p) :=
  ⟨fun _ => NiceP.putBack, fun u z z' t _ _ _ _ _ h => by
    replace h : (some (.ok p) :: u) ++ z = t ++ z := h
    have := List.append_cancel_right h
    rw [← this]; rfl⟩

theorem bindBack {f : Unit → Rd β} (hf : Loc (f ())) : LocP p (Rd.putBack p >>= f) :=
  ⟨fun n => NiceP.bindBack (hf.nice n), by
    intro u z z' t hfi hz hl ht hc h
    refine hf.loc (some (.ok p) :: u) z z' t ?_ hz hl ht hc h
    intro it hm
    rcases List.mem_cons.mp hm with rfl | hm
    · simp
    · exact hfi it hm⟩

theorem ite {c : Prop} [Decidable c] {a b : Rd α} (ha : c → LocP p a) (hb : ¬ c → LocP p b) :
    LocP p (if c then a else b) := by
  by_cases h : c
  · rw [if_pos h]; exact ha h
  · rw [if_neg h]; exact hb h

theorem bite {c : Bool} {a b : Rd α} (ha : LocP p a) (hb : LocP p b) :
    LocP p (bif c then a else b) := by
  cases c
  · exact hb
  · exact ha

end LocP

/-- Takes a reader apart; calls of other readers are left. -/
macro "locally" : tactic => `(tactic| repeat' first
  | assumption
  | exact Loc.pure
  | exact Loc.fail
  | exact Loc.lift
  | exact LocP.pure
  | exact LocP.fail
  | exact LocP.lift
  | exact LocP.putBack
  | (refine Loc.next? ?_ fun _ => ?_)
  | (refine Loc.next fun _ => ?_)
  | (refine LocP.bindLift fun _ => ?_)
  | (refine LocP.bindBack ?_)
  | (refine LocP.bind ?_ fun _ => ?_)
  | (refine Loc.bind ?_ fun _ => ?_)
  | (refine LocP.ite (fun _ => ?_) (fun _ => ?_))
  | (refine Loc.ite (fun _ => ?_) (fun _ => ?_))
  | split)

end Dxf
