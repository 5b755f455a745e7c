import Verif.Lemmas.AlikeRead
import Verif.Lemmas.Cut
import Verif.Spec.Insert

/-! Inserting something into a file. -/

namespace Dxf

/-- The same result, and in case of success the same rest of the input. -/
def Sim {α : Type} (x y : Except DxfErr α × Stream) : Prop :=
  y.1 = x.1 ∧ ∀ a, x.1 = .ok a → y.2 = x.2

theorem Sim.refl {α : Type} {x : Except DxfErr α × Stream} : Sim x x := ⟨rfl, fun _ _ => rfl⟩

theorem Sim.trans {α : Type} {x y z : Except DxfErr α × Stream} (h : Sim x y) (h' : Sim y z) :
    Sim x z := ⟨h'.1.trans h.1, fun a ha => (h'.2 a (h.1.trans ha)).trans (h.2 a ha)⟩

theorem Sim.calm {α : Type} {x y : Except DxfErr α × Stream} (h : Sim x y) (hx : Calm x.1) :
    Calm y.1 := by rw [h.1]; exact hx

/-- A reader does the same for the second stream as for the first. -/
def Same {α : Type} (r : Rd α) (s s' : Stream) : Prop := Calm (r s).1 → Sim (r s) (r s')

namespace Same

variable {α β : Type} {s s' : Stream}

theorem bind {m : Rd α} {f : α → Rd β} (h : Same m s s') : Same (m >>= f) s s' := by
  intro hc
  rw [Rd.run_bind] at hc ⊢
  rw [Rd.run_bind]
  unfold Same at h
  rcases h1 : m s with ⟨x, t⟩
  rcases h2 : m s' with ⟨x', t'⟩
  rw [h1] at hc h
  rw [h2] at h
  cases x with
  | error e =>
    obtain ⟨h3, _⟩ := h fun he => hc (by cases he; rfl)
    dsimp only at h3
    subst h3
    exact ⟨rfl, fun a ha => by cases ha⟩
  | ok a =>
    obtain ⟨h3, h4⟩ := h Calm.ok
    dsimp only at h3 h4
    subst h3
    rw [h4 a rfl]
    exact .refl

/-- The first reader does the same and leaves the streams at the two places. -/
theorem after {m : Rd α} {f : α → Rd β} {a : α} {t t' : Stream} (h1 : m s = (.ok a, t))
    (h2 : m s' = (.ok a, t')) (h : Same (f a) t t') : Same (m >>= f) s s' := by
  intro hc
  rw [Rd.run_bind, h1] at hc ⊢
  rw [Rd.run_bind, h2]
  exact h hc

end Same

/-! ### Rounds -/

/-- A round does not depend on what comes after it. -/
structure Passes {σ : Type} (C : Int → Prop) (g : σ → Rd σ) : Prop where
  less : ∀ st s st' t, Fine false s → g st s = (.ok st', t) → t <:+ s ∧ t.length < s.length
  pass : ∀ st st' (u v : Stream) (q : CodePair) (z : Stream) (q' : CodePair) (z' : Stream),
    Fine false (u ++ some (.ok q) :: z) → C q.code → C q'.code → z.length ≤ z'.length →
    g st (u ++ some (.ok q) :: z) = (.ok st', v ++ some (.ok q) :: z) →
    g st (u ++ some (.ok q') :: z') = (.ok st', v ++ some (.ok q') :: z')

/-- A reader that stops in front of a pair. -/
theorem LocC.pass {α : Type} {C : Int → Prop} {r : Rd α} (h : LocC C r) {u v : Stream} {q : CodePair}
    {z : Stream} {q' : CodePair} {z' : Stream} {a : α} (hfi : Fine false (u ++ some (.ok q) :: z))
    (hq : C q.code) (hq' : C q'.code) (hl : z.length ≤ z'.length)
    (he : r (u ++ some (.ok q) :: z) = (.ok a, v ++ some (.ok q) :: z)) :
    r (u ++ some (.ok q') :: z') = (.ok a, v ++ some (.ok q') :: z') := by
  by_cases hv : v = []
  · subst hv
    have := h.here u q z q' z' hfi hq hq' hl (by rw [he]; exact Calm.ok) (by rw [he]; rfl)
    rw [this, he]
    rfl
  · have := h.loc.loc u (some (.ok q) :: z) (some (.ok q') :: z') v hfi (by simp) (by simpa using hl)
      hv (by rw [he]; exact Calm.ok) (by rw [he])
    rw [this, he]

theorem Steps.suffix {σ : Type} {C : Int → Prop} {g : σ → Rd σ} (hg : Passes C g) {st st' : σ}
    {s b : Stream} (h : Steps g st s st' b) (hs : Fine false s) : b <:+ s := by
  induction h with
  | here => exact List.suffix_refl _
  | next h _ ih =>
    obtain ⟨h1, _⟩ := hg.less _ _ _ _ hs h
    exact (ih (hs.suffix h1)).trans h1

/-- The rounds that lead to a place lead to the same place after something has been changed
there, and a loop goes through the same rounds. -/
theorem Steps.loop {σ β : Type} {C : Int → Prop} {g : σ → Rd σ} (hg : Passes C g)
    {f : Nat → σ → Rd β}
    (hf : ∀ k st s st1 t, g st s = (.ok st1, t) → f (k + 1) st s = f k st1 t) {st st' : σ}
    {u : Stream} {q : CodePair} {z : Stream} {q' : CodePair} {z' : Stream} (hq : C q.code)
    (hq' : C q'.code) (hl : z.length ≤ z'.length)
    (h : Steps g st (u ++ some (.ok q) :: z) st' (some (.ok q) :: z))
    (hfi : Fine false (u ++ some (.ok q) :: z)) :
    Steps g st (u ++ some (.ok q') :: z') st' (some (.ok q') :: z') ∧ ∃ n ≤ u.length,
      (∀ k, f (k + n) st (u ++ some (.ok q) :: z) = f k st' (some (.ok q) :: z)) ∧
      ∀ k, f (k + n) st (u ++ some (.ok q') :: z') = f k st' (some (.ok q') :: z') := by
  generalize hs : u ++ some (.ok q) :: z = s at h
  generalize hb : some (Except.ok q) :: z = b at h
  induction h generalizing u with
  | here =>
    subst hb
    have : u = [] := by
      have := congrArg List.length hs
      simp only [List.length_append, List.length_cons] at this
      exact List.eq_nil_of_length_eq_zero (by omega)
    subst this
    exact ⟨.here, 0, by simp, fun k => rfl, fun k => rfl⟩
  | next h hs' ih =>
    subst hs hb
    obtain ⟨h1, h2⟩ := hg.less _ _ _ _ hfi h
    obtain ⟨v, hv⟩ := Steps.suffix hg hs' (hfi.suffix h1)
    obtain ⟨h3, n, hn, h4, h5⟩ := ih (u := v) (hv ▸ hfi.suffix h1) hv rfl
    subst hv
    have h6 := hg.pass _ _ u v q z q' z' hfi hq hq' hl h
    refine ⟨.next h6 h3, n + 1, ?_, fun k => ?_, fun k => ?_⟩
    · simp only [List.length_append, List.length_cons] at h2
      omega
    · rw [show k + (n + 1) = (k + n) + 1 by omega, hf _ _ _ _ _ h, ← h4 k]
    · rw [show k + (n + 1) = (k + n) + 1 by omega, hf _ _ _ _ _ h6, h5 k]

/-- A loop that comes to a place at which it does the same for both streams. -/
theorem Steps.same {σ β : Type} {C : Int → Prop} {g : σ → Rd σ} (hg : Passes C g)
    {f : Nat → σ → Rd β}
    (hf : ∀ k st s st1 t, g st s = (.ok st1, t) → f (k + 1) st s = f k st1 t) {st st' : σ}
    {u : Stream} {q : CodePair} {z : Stream} {q' : CodePair} {z' : Stream} (hq : C q.code)
    (hq' : C q'.code) (hl : z.length ≤ z'.length)
    (h : Steps g st (u ++ some (.ok q) :: z) st' (some (.ok q) :: z))
    (hfi : Fine false (u ++ some (.ok q) :: z))
    (hb : ∀ k, Calm (f (k + 1) st' (some (.ok q) :: z)).1 → Sim (f (k + 1) st' (some (.ok q) :: z))
      (f (k + 1 + (z'.length - z.length)) st' (some (.ok q') :: z'))) :
    Same (Rd.withFuel fun k => f k st) (u ++ some (.ok q) :: z) (u ++ some (.ok q') :: z') := by
  obtain ⟨_, n, hn, h1, h2⟩ := Steps.loop hg hf hq hq' hl h hfi
  intro hc
  rw [Rd.run_withFuel] at hc ⊢
  rw [Rd.run_withFuel]
  have e1 : (u ++ some (.ok q) :: z).length + 1 = (u.length + z.length + 1 - n) + 1 + n := by
    simp only [List.length_append, List.length_cons]; omega
  have e2 : (u ++ some (.ok q') :: z').length + 1 =
      (u.length + z.length + 1 - n) + 1 + (z'.length - z.length) + n := by
    simp only [List.length_append, List.length_cons]; omega
  rw [e1, h1] at hc ⊢
  rw [e2, h2]
  exact hb _ hc

/-- The same with nothing lost about the rest of the input. -/
theorem Steps.exact {σ β : Type} {C : Int → Prop} {g : σ → Rd σ} (hg : Passes C g)
    {f : Nat → σ → Rd β}
    (hf : ∀ k st s st1 t, g st s = (.ok st1, t) → f (k + 1) st s = f k st1 t) {st st' : σ}
    {u : Stream} {q : CodePair} {z : Stream} {q' : CodePair} {z' : Stream} (hq : C q.code)
    (hq' : C q'.code) (hl : z.length ≤ z'.length)
    (h : Steps g st (u ++ some (.ok q) :: z) st' (some (.ok q) :: z))
    (hfi : Fine false (u ++ some (.ok q) :: z))
    (hb : ∀ k, Calm (f (k + 1) st' (some (.ok q) :: z)).1 →
      f (k + 1 + (z'.length - z.length)) st' (some (.ok q') :: z') =
        f (k + 1) st' (some (.ok q) :: z))
    (hc : Calm (Rd.withFuel (fun k => f k st) (u ++ some (.ok q) :: z)).1) :
    Rd.withFuel (fun k => f k st) (u ++ some (.ok q') :: z') =
      Rd.withFuel (fun k => f k st) (u ++ some (.ok q) :: z) := by
  obtain ⟨_, n, hn, h1, h2⟩ := Steps.loop hg hf hq hq' hl h hfi
  rw [Rd.run_withFuel] at hc ⊢
  rw [Rd.run_withFuel]
  have e1 : (u ++ some (.ok q) :: z).length + 1 = (u.length + z.length + 1 - n) + 1 + n := by
    simp only [List.length_append, List.length_cons]; omega
  have e2 : (u ++ some (.ok q') :: z').length + 1 =
      (u.length + z.length + 1 - n) + 1 + (z'.length - z.length) + n := by
    simp only [List.length_append, List.length_cons]; omega
  rw [e1, h1] at hc ⊢
  rw [e2, h2]
  exact hb _ hc

/-- Something has been inserted that a round skips. -/
theorem skip_eq {σ β : Type} {g : σ → Rd σ} {f : Nat → σ → Rd β}
    (hf : ∀ k st s st1 t, g st s = (.ok st1, t) → f (k + 1) st s = f k st1 t)
    (hm : ∀ st, Mono fun k => f k st) {st : σ} {b b' : Stream} (h : g st b' = (.ok st, b))
    {k n : Nat} (hn : 1 ≤ n) (hc : Calm (f k st b).1) : f (k + n) st b' = f k st b := by
  obtain ⟨m, rfl⟩ : ∃ m, n = m + 1 := ⟨n - 1, by omega⟩
  rw [show k + (m + 1) = (k + m) + 1 by omega, hf _ _ _ _ _ h]
  exact (hm st).le (Nat.le_add_right k m) b hc

theorem skip_sim {σ β : Type} {g : σ → Rd σ} {f : Nat → σ → Rd β}
    (hf : ∀ k st s st1 t, g st s = (.ok st1, t) → f (k + 1) st s = f k st1 t)
    (hm : ∀ st, Mono fun k => f k st) {st : σ} {b b' : Stream} (h : g st b' = (.ok st, b))
    {k n : Nat} (hn : 1 ≤ n) (hc : Calm (f k st b).1) : Sim (f k st b) (f (k + n) st b') := by
  rw [skip_eq hf hm h hn hc]
  exact .refl

end Dxf
