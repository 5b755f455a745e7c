import Verif.Lemmas.Rd

/-! Readers neither panic nor run out of fuel, and never lengthen the stream. -/

namespace Dxf

/-- The two errors that stand for something other than a returned `DxfError`. -/
def DxfErr.Bad (e : DxfErr) : Prop := e = .panic ∨ e = .outOfFuel

/-- No item of the stream is a panic or a fuel error. -/
def NoBad (s : Stream) : Prop := ∀ e, some (.error e) ∈ s → ¬ e.Bad

/-- A result without panic or fuel error that left at most `n` items. -/
def Good {α : Type} (n : Nat) (r : Except DxfErr α × Stream) : Prop :=
  (∀ e, r.1 = .error e → ¬ e.Bad) ∧ NoBad r.2 ∧ r.2.length ≤ n

/-- An `Except` value that is not a panic or fuel error. -/
def GoodE {α : Type} (x : Except DxfErr α) : Prop := ∀ e, x = .error e → ¬ e.Bad

theorem NoBad.tail {it : Item} {s : Stream} (h : NoBad (it :: s)) : NoBad s :=
  fun e he => h e (List.mem_cons_of_mem _ he)

theorem NoBad.cons_ok {p : CodePair} {s : Stream} (h : NoBad s) : NoBad (some (.ok p) :: s) := by
  intro e he
  simp only [List.mem_cons, Option.some.injEq, reduceCtorEq, false_or] at he
  exact h e he

theorem NoBad.toStream (ps : List CodePair) : NoBad (toStream ps) := by
  intro e he
  simp [Dxf.toStream] at he

theorem Stream.next_noBad (s : Stream) (h : NoBad s) :
    NoBad s.next.2 ∧ ∀ e, s.next.1 = some (.error e) → ¬ e.Bad := by
  induction s with
  | nil => simp [Stream.next, NoBad]
  | cons it r ih =>
    rw [Stream.next]
    split
    · exact ih h.tail
    · exact ⟨h.tail, fun e he => h e (by rw [← he]; exact List.mem_cons_self)⟩

namespace Good

variable {α β : Type}

theorem mono {n n' : Nat} {r : Except DxfErr α × Stream} (h : Good n r) (hn : n ≤ n') : Good n' r :=
  ⟨h.1, h.2.1, Nat.le_trans h.2.2 hn⟩

theorem bind {n : Nat} {m : Rd α} {f : α → Rd β} {s : Stream} (hm : Good n (m s))
    (hf : ∀ a s', m s = (.ok a, s') → NoBad s' → s'.length ≤ n → Good n (f a s')) :
    Good n ((m >>= f) s) := by
  rw [Rd.run_bind]
  rcases hms : m s with ⟨x, s'⟩
  rw [hms] at hm
  cases x with
  | ok a => exact hf a s' hms hm.2.1 hm.2.2
  | error e => exact ⟨fun e' he => hm.1 e' (by simpa using he), hm.2.1, hm.2.2⟩

theorem pure {n : Nat} {a : α} {s : Stream} (h : NoBad s) (hn : s.length ≤ n) :
    Good n ((Pure.pure a : Rd α) s) := ⟨by simp, h, hn⟩

theorem fail {n : Nat} {e : DxfErr} {s : Stream} (he : ¬ e.Bad) (h : NoBad s)
    (hn : s.length ≤ n) : Good n ((Rd.fail e : Rd α) s) := by
  refine ⟨?_, h, hn⟩
  intro e' h'
  simp only [Rd.run_fail, Except.error.injEq] at h'
  exact h' ▸ he

theorem lift {n : Nat} {x : Except DxfErr α} {s : Stream} (hx : GoodE x) (h : NoBad s)
    (hn : s.length ≤ n) : Good n (Rd.lift x s) := ⟨hx, h, hn⟩

theorem next {n : Nat} {s : Stream} (h : NoBad s) (hn : s.length ≤ n + 1) :
    Good n (Rd.next s) := by
  have h1 := Stream.next_noBad s h
  have h2 := Stream.next_length s
  unfold Rd.next
  rcases hs : s.next with ⟨it, s'⟩
  rw [hs] at h1 h2
  simp only at h1 h2
  rcases it with _ | (e | p)
  · exact ⟨by simp [DxfErr.Bad], h1.1, by simp only; omega⟩
  · exact ⟨by simpa using h1.2, h1.1, by simp only; omega⟩
  · exact ⟨by simp, h1.1, by simp only; omega⟩

theorem next? {n : Nat} {s : Stream} (h : NoBad s) (hn : s.length ≤ n + 1) :
    Good n (Rd.next? s) := by
  have h1 := Stream.next_noBad s h
  have h2 := Stream.next_length s
  unfold Rd.next?
  rcases hs : s.next with ⟨it, s'⟩
  rw [hs] at h1 h2
  simp only at h1 h2
  rcases it with _ | (e | p)
  · exact ⟨by simp, h1.1, by simp only; omega⟩
  · exact ⟨by simpa using h1.2, h1.1, by simp only; omega⟩
  · exact ⟨by simp, h1.1, by simp only; omega⟩

theorem putBack {n : Nat} {p : CodePair} {s : Stream} (h : NoBad s) (hn : s.length + 1 ≤ n) :
    Good n (Rd.putBack p s) := ⟨by simp, h.cons_ok, by simpa using hn⟩

theorem ite {n : Nat} {c : Prop} [Decidable c] {a b : Rd α} {s : Stream} (ha : c → Good n (a s))
    (hb : ¬ c → Good n (b s)) : Good n ((if c then a else b) s) := by
  by_cases h : c
  · rw [if_pos h]; exact ha h
  · rw [if_neg h]; exact hb h

end Good

theorem Rd.next_lt {s s' : Stream} {p : CodePair} (h : Rd.next s = (.ok p, s')) :
    s'.length < s.length := by
  cases s with
  | nil => simp at h
  | cons it r =>
    have := Stream.next_length (it :: r)
    unfold Rd.next at h
    rcases hs : Stream.next (it :: r) with ⟨x, s''⟩
    rw [hs] at h this
    rcases x with _ | (e | q) <;> simp at h
    simp only [List.length_cons] at this ⊢
    rw [← h.2]
    omega

theorem Rd.next?_lt {s s' : Stream} {p : CodePair} (h : Rd.next? s = (.ok (some p), s')) :
    s'.length < s.length := by
  cases s with
  | nil => simp at h
  | cons it r =>
    have := Stream.next_length (it :: r)
    unfold Rd.next? at h
    rcases hs : Stream.next (it :: r) with ⟨x, s''⟩
    rw [hs] at h this
    rcases x with _ | (e | q) <;> simp at h
    simp only [List.length_cons] at this ⊢
    rw [← h.2]
    omega

namespace GoodE

theorem ok {α : Type} (a : α) : GoodE (.ok a) := by simp [GoodE]

theorem map {α β : Type} {f : α → β} {x : Except DxfErr α} (h : GoodE x) : GoodE (x.map f) := by
  cases x with
  | ok a => simp [GoodE, Except.map]
  | error e => simpa [GoodE, Except.map] using h e rfl

theorem assertString (p : CodePair) : GoodE p.assertString := by
  unfold CodePair.assertString; split <;> simp [GoodE, DxfErr.Bad]
theorem assertF64 (p : CodePair) : GoodE p.assertF64 := by
  unfold CodePair.assertF64; split <;> simp [GoodE, DxfErr.Bad]
theorem assertI16 (p : CodePair) : GoodE p.assertI16 := by
  unfold CodePair.assertI16; split <;> simp [GoodE, DxfErr.Bad]
theorem assertI32 (p : CodePair) : GoodE p.assertI32 := by
  unfold CodePair.assertI32; split <;> simp [GoodE, DxfErr.Bad]
theorem assertI64 (p : CodePair) : GoodE p.assertI64 := by
  unfold CodePair.assertI64; split <;> simp [GoodE, DxfErr.Bad]
theorem assertBool (p : CodePair) : GoodE p.assertBool := by
  unfold CodePair.assertBool; split <;> simp [GoodE, DxfErr.Bad]
theorem assertBinary (p : CodePair) : GoodE p.assertBinary := by
  unfold CodePair.assertBinary; split <;> simp [GoodE, DxfErr.Bad]

theorem parseHexLoop (off : Nat) (s : Str) : ∀ b cur, GoodE (parseHexLoop off b cur s) := by
  induction s with
  | nil => intro b cur; simp [Dxf.parseHexLoop, GoodE]
  | cons c cs ih =>
    intro b cur
    simp only [Dxf.parseHexLoop]
    cases hexVal? c with
    | none => simp [GoodE, DxfErr.Bad]
    | some v =>
      simp only
      split
      · have := ih false cur
        cases hp : Dxf.parseHexLoop off false cur cs with
        | ok bs => simp [GoodE]
        | error e => simpa [GoodE, hp] using this e hp
      · exact ih true v

theorem parseHexString (s : Str) (off : Nat) : GoodE (parseHexString s off) :=
  parseHexLoop off s _ _

theorem asHandle (p : CodePair) : GoodE p.asHandle := by
  unfold CodePair.asHandle
  have h1 := assertString p
  cases h : p.assertString with
  | error e => simpa [GoodE] using h1 e h
  | ok s =>
    simp only
    have h2 := parseHexString (trim s) p.offset
    cases h' : Dxf.parseHexString (trim s) p.offset with
    | error e => simpa [GoodE] using h2 e h'
    | ok s => simp [GoodE]

end GoodE

end Dxf
