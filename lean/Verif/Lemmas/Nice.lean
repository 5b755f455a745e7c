import Verif.Lemmas.Rd
import Verif.Model.Entry

/-! Readers leave a tail of the stream, and do not run out of fuel. -/

namespace Dxf

/-- A pair that starts something whose reader need not come to an end: a `SectionSettings` object
or the section with the blocks. -/
def CodePair.Tricky (p : CodePair) : Prop :=
  (p.code = 0 ∧ p.value = .str str!"SECTIONSETTINGS") ∨ (p.code = 2 ∧ p.value = .str str!"BLOCKS")

instance (p : CodePair) : Decidable p.Tricky := inferInstanceAs (Decidable (_ ∨ _))

/-- No item of the stream is a fuel error and, if `t`, no pair is tricky. -/
def Fine (t : Bool) (s : Stream) : Prop :=
  ∀ it ∈ s, it ≠ some (.error .outOfFuel) ∧ (t = true → ∀ p, it = some (.ok p) → ¬ p.Tricky)

theorem Fine.suffix {t : Bool} {s s' : Stream} (h : Fine t s) (hs : s' <:+ s) : Fine t s' :=
  fun it hm => h it (hs.subset hm)

theorem Fine.toStream (ps : List CodePair) : Fine false (toStream ps) := by
  intro it h
  simp [Dxf.toStream] at h
  obtain ⟨p, _, rfl⟩ := h
  simp

/-- On streams with at most `n` items the reader leaves a tail of the stream and, if `t`, does not
run out of fuel. -/
def Nice {α : Type} (t : Bool) (n : Nat) (r : Rd α) : Prop :=
  ∀ s : Stream, s.length ≤ n → Fine t s →
    (r s).2 <:+ s ∧ (t = true → (r s).1 ≠ .error .outOfFuel)

/-- The same for a reader that runs after the pair `p` has been read and may put it back. -/
def NiceP {α : Type} (t : Bool) (n : Nat) (p : CodePair) (r : Rd α) : Prop :=
  ∀ s : Stream, s.length + 1 ≤ n → Fine t (some (.ok p) :: s) →
    (r s).2 <:+ some (.ok p) :: s ∧ (t = true → (r s).1 ≠ .error .outOfFuel)

/-- A nice reader that uses up at least `c a` items when it returns `a`. -/
def NiceC {α : Type} (t : Bool) (n : Nat) (c : α → Nat) (r : Rd α) : Prop :=
  Nice t n r ∧ ∀ s : Stream, s.length ≤ n → Fine t s → ∀ a, (r s).1 = .ok a →
    (r s).2.length + c a ≤ s.length

/-- A value that is not a fuel error. -/
def Calm {α : Type} (x : Except DxfErr α) : Prop := x ≠ .error .outOfFuel

namespace Nice

variable {α β : Type} {t : Bool} {n : Nat}

theorem mono {r : Rd α} {n' : Nat} (h : Nice t n r) (hn : n' ≤ n) : Nice t n' r :=
  fun s hs => h s (Nat.le_trans hs hn)


theorem pure {a : α} : Nice t n (Pure.pure a : Rd α) :=
  fun s _ _ => ⟨List.suffix_refl s, by simp⟩

theorem fail {e : DxfErr} (h : t = true → e ≠ .outOfFuel) : Nice t n (Rd.fail e : Rd α) :=
  fun s _ _ => ⟨List.suffix_refl s, fun ht hc => h ht (by simpa using hc)⟩

theorem lift {x : Except DxfErr α} (h : t = true → Calm x) : Nice t n (Rd.lift x) :=
  fun s _ _ => ⟨List.suffix_refl s, h⟩

theorem bind {m : Rd α} {f : α → Rd β} (hm : Nice t n m) (hf : ∀ a, Nice t n (f a)) :
    Nice t n (m >>= f) := by
  intro s hs hn
  rw [Rd.run_bind]
  obtain ⟨h1, h2⟩ := hm s hs hn
  rcases hms : m s with ⟨x, s'⟩
  rw [hms] at h1 h2
  cases x with
  | ok a =>
    obtain ⟨h3, h4⟩ := hf a s' (Nat.le_trans h1.length_le hs) (hn.suffix h1)
    exact ⟨h3.trans h1, h4⟩
  | error e => exact ⟨h1, fun ht hc => h2 ht (by simpa using hc)⟩

theorem ite {c : Prop} [Decidable c] {a b : Rd α} (ha : c → Nice t n a) (hb : ¬ c → Nice t n b) :
    Nice t n (if c then a else b) := by
  by_cases h : c
  · rw [if_pos h]; exact ha h
  · rw [if_neg h]; exact hb h

theorem bite {c : Bool} {a b : Rd α} (ha : c = true → Nice t n a) (hb : c = false → Nice t n b) :
    Nice t n (bif c then a else b) := by
  cases c
  · exact hb rfl
  · exact ha rfl

theorem withFuel {f : Nat → Rd α} (h : ∀ k, Nice t k (f (k + 1))) : Nice t n (Rd.withFuel f) :=
  fun s _ hn => h s.length s (Nat.le_refl _) hn

end Nice

theorem Stream.next_suffix (s : Stream) : s.next.2 <:+ s ∧ ∀ it, s.next.1 = some it →
    some it :: s.next.2 <:+ s := by
  induction s with
  | nil => simp [Stream.next]
  | cons it r ih =>
    rw [Stream.next]
    split
    · exact ⟨ih.1.trans (List.suffix_cons _ _), fun x hx => (ih.2 x hx).trans (List.suffix_cons _ _)⟩
    · refine ⟨List.suffix_cons _ _, ?_⟩
      rintro x rfl
      exact List.suffix_refl _

namespace Nice

variable {α β : Type} {t : Bool} {n : Nat}

theorem next? {f : Option CodePair → Rd β} (h0 : Nice t n (f none))
    (h1 : ∀ p, NiceP t n p (f (some p))) : Nice t n (Rd.next? >>= f) := by
  intro s hs hn
  obtain ⟨h2, h3⟩ := Stream.next_suffix s
  rw [Rd.run_bind, Rd.next?]
  rcases hx : s.next with ⟨x, s'⟩
  rw [hx] at h2 h3
  rcases x with _ | (e | p)
  · obtain ⟨h4, h5⟩ := h0 s' (Nat.le_trans h2.length_le hs) (hn.suffix h2)
    exact ⟨h4.trans h2, h5⟩
  · refine ⟨h2, fun _ hc => ?_⟩
    cases hc
    exact (hn _ ((h3 _ rfl).subset List.mem_cons_self)).1 rfl
  · have h4 := h3 _ rfl
    obtain ⟨h5, h6⟩ := h1 p s' (Nat.le_trans h4.length_le hs) (hn.suffix h4)
    exact ⟨h5.trans h4, h6⟩

theorem next {f : CodePair → Rd β} (h1 : ∀ p, NiceP t n p (f p)) : Nice t n (Rd.next >>= f) := by
  intro s hs hn
  obtain ⟨h2, h3⟩ := Stream.next_suffix s
  rw [Rd.run_bind, Rd.next]
  rcases hx : s.next with ⟨x, s'⟩
  rw [hx] at h2 h3
  rcases x with _ | (e | p)
  · exact ⟨h2, fun _ => by simp⟩
  · refine ⟨h2, fun _ hc => ?_⟩
    cases hc
    exact (hn _ ((h3 _ rfl).subset List.mem_cons_self)).1 rfl
  · have h4 := h3 _ rfl
    obtain ⟨h5, h6⟩ := h1 p s' (Nat.le_trans h4.length_le hs) (hn.suffix h4)
    exact ⟨h5.trans h4, h6⟩

end Nice

namespace NiceP

variable {α β : Type} {t : Bool} {n : Nat} {p : CodePair}

theorem drop {r : Rd α} (h : 1 ≤ n → Nice t (n - 1) r) : NiceP t n p r := by
  intro s hs hn
  obtain ⟨h1, h2⟩ := h (by omega) s (by omega) (hn.suffix (List.suffix_cons _ _))
  exact ⟨h1.trans (List.suffix_cons _ _), h2⟩

theorem pure {a : α} : NiceP t n p (Pure.pure a : Rd α) := drop fun _ => Nice.pure

theorem fail {e : DxfErr} (h : t = true → e ≠ .outOfFuel) : NiceP t n p (Rd.fail e : Rd α) :=
  drop fun _ => Nice.fail h

theorem lift {x : Except DxfErr α} (h : t = true → Calm x) : NiceP t n p (Rd.lift x) :=
  drop fun _ => Nice.lift h

theorem bindLift {x : Except DxfErr α} {f : α → Rd β} (h : t = true → Calm x)
    (hf : ∀ a, NiceP t n p (f a)) : NiceP t n p (Rd.lift x >>= f) := by
  intro s hs hn
  cases x with
  | ok a => exact hf a s hs hn
  | error e => exact ⟨List.suffix_cons _ _, fun ht hc => h ht (by simpa [Rd.run_bind] using hc)⟩

theorem bind {m : Rd α} {f : α → Rd β} (hm : 1 ≤ n → Nice t (n - 1) m)
    (hf : 1 ≤ n → ∀ a, Nice t (n - 1) (f a)) : NiceP t n p (m >>= f) :=
  drop fun h => Nice.bind (hm h) (hf h)

theorem putBack : NiceP t n p (Rd.putBack p) :=
  fun s _ _ => ⟨List.suffix_refl _, fun _ => by simp⟩

theorem bindBack {f : Unit → Rd β} (hf : Nice t n (f ())) : NiceP t n p (Rd.putBack p >>= f) :=
  fun s hs hn => hf (some (.ok p) :: s) (by simpa using hs) hn

theorem fine {r : Rd α} (h : (t = true → ¬ p.Tricky) → NiceP t n p r) : NiceP t n p r :=
  fun s hs hn => h (fun ht => (hn _ List.mem_cons_self).2 ht p rfl) s hs hn

theorem ite {c : Prop} [Decidable c] {a b : Rd α} (ha : c → NiceP t n p a)
    (hb : ¬ c → NiceP t n p b) : NiceP t n p (if c then a else b) := by
  by_cases h : c
  · rw [if_pos h]; exact ha h
  · rw [if_neg h]; exact hb h

theorem bite {c : Bool} {a b : Rd α} (ha : c = true → NiceP t n p a)
    (hb : c = false → NiceP t n p b) : NiceP t n p (bif c then a else b) := by
  cases c
  · exact hb rfl
  · exact ha rfl

end NiceP

namespace NiceC

variable {α β : Type} {t : Bool} {n : Nat}

theorem mono {r : Rd α} {c c' : α → Nat} (h : NiceC t n c r) (hc : ∀ a, c' a ≤ c a) :
    NiceC t n c' r :=
  ⟨h.1, fun s hs hn a ha => by have := h.2 s hs hn a ha; have := hc a; omega⟩

theorem of {r : Rd α} (h : Nice t n r) : NiceC t n (fun _ => 0) r :=
  ⟨h, fun s hs hn _ _ => (h s hs hn).1.length_le⟩

theorem pure {a : α} {c : α → Nat} (h : c a = 0) : NiceC t n c (Pure.pure a : Rd α) :=
  ⟨Nice.pure, fun s _ _ b hb => by cases hb; simp [h]⟩

theorem fail {e : DxfErr} {c : α → Nat} (h : t = true → e ≠ .outOfFuel) :
    NiceC t n c (Rd.fail e : Rd α) :=
  ⟨Nice.fail h, fun s _ _ b hb => by simp at hb⟩

theorem bind {m : Rd α} {f : α → Rd β} {c : α → Nat} (hm : NiceC t n c m)
    (hf : ∀ a, c a ≤ n → Nice t (n - c a) (f a)) : Nice t n (m >>= f) := by
  intro s hs hn
  rw [Rd.run_bind]
  obtain ⟨h1, h2⟩ := hm.1 s hs hn
  have h3 := hm.2 s hs hn
  rcases hms : m s with ⟨x, s'⟩
  rw [hms] at h1 h2 h3
  cases x with
  | ok a =>
    have h5 := h3 a rfl
    dsimp only at h5
    obtain ⟨h3, h4⟩ := hf a (by omega) s' (by omega) (hn.suffix h1)
    exact ⟨h3.trans h1, h4⟩
  | error e => exact ⟨h1, fun ht hc => h2 ht (by simpa using hc)⟩

theorem bindC {m : Rd α} {f : α → Rd β} {c : α → Nat} {d : β → Nat} (hm : NiceC t n c m)
    (hf : ∀ a, c a ≤ n → NiceC t (n - c a) (fun b => d b - c a) (f a)) : NiceC t n d (m >>= f) := by
  refine ⟨bind hm fun a h => (hf a h).1, ?_⟩
  intro s hs hn b hb
  rw [Rd.run_bind] at hb ⊢
  obtain ⟨h1, h2⟩ := hm.1 s hs hn
  have h3 := hm.2 s hs hn
  rcases hms : m s with ⟨x, s'⟩
  rw [hms] at h1 h2 h3 hb
  cases x with
  | ok a =>
    have h5 := h3 a rfl
    dsimp only at h5
    have := (hf a (by omega)).2 s' (by omega) (hn.suffix h1) b hb
    dsimp only at this ⊢
    omega
  | error e => simp at hb

theorem ite {c : Prop} [Decidable c] {d : α → Nat} {a b : Rd α} (ha : c → NiceC t n d a)
    (hb : ¬ c → NiceC t n d b) : NiceC t n d (if c then a else b) := by
  by_cases h : c
  · rw [if_pos h]; exact ha h
  · rw [if_neg h]; exact hb h

/-- After a pair has been read, and not put back. -/
theorem next {f : CodePair → Rd β} {d : β → Nat}
    (hf : ∀ p, (t = true → ¬ p.Tricky) → 1 ≤ n → NiceC t (n - 1) (fun b => d b - 1) (f p)) :
    NiceC t n d (Rd.next >>= f) := by
  have hN : Nice t n (Rd.next >>= f) := Nice.next fun p => NiceP.fine fun hp =>
    NiceP.drop fun h => (hf p hp h).1
  refine ⟨hN, ?_⟩
  intro s hs hn b hb
  obtain ⟨h2, h3⟩ := Stream.next_suffix s
  rw [Rd.run_bind, Rd.next] at hb ⊢
  rcases hx : s.next with ⟨x, s'⟩
  rw [hx] at h2 h3 hb
  rcases x with _ | (e | p)
  · simp at hb
  · simp at hb
  · have h4 := h3 _ rfl
    have h6 := h4.length_le
    simp only [List.length_cons] at h6
    have := (hf p (fun ht => (hn _ (h4.subset List.mem_cons_self)).2 ht p rfl) (by omega)).2 s'
      (by omega) (hn.suffix h2) b hb
    dsimp only at this ⊢
    omega

end NiceC

theorem NiceC.withFuel {α : Type} {t : Bool} {n : Nat} {c : α → Nat} {f : Nat → Rd α}
    (h : ∀ k, NiceC t k c (f (k + 1))) : NiceC t n c (Rd.withFuel f) :=
  ⟨Nice.withFuel fun k => (h k).1, fun s _ hn => (h s.length).2 s (Nat.le_refl _) hn⟩

/-- Counting after the pair `p` has been read, which counts and may be put back. -/
def NicePC {α : Type} (t : Bool) (n : Nat) (p : CodePair) (d : α → Nat) (r : Rd α) : Prop :=
  NiceP t n p r ∧ ∀ s : Stream, s.length + 1 ≤ n → Fine t (some (.ok p) :: s) → ∀ a,
    (r s).1 = .ok a → (r s).2.length + d a ≤ s.length + 1

namespace NicePC

variable {α β : Type} {t : Bool} {n : Nat} {p : CodePair} {d : β → Nat}

theorem drop {r : Rd β} (h : 1 ≤ n → NiceC t (n - 1) (fun b => d b - 1) r) : NicePC t n p d r := by
  refine ⟨NiceP.drop fun hn => (h hn).1, fun s hs hn b hb => ?_⟩
  have := (h (by omega)).2 s (by omega) (hn.suffix (List.suffix_cons _ _)) b hb
  dsimp only at this
  omega

theorem ofPure {r : Rd β} (h : NiceP t n p r)
    (hd : ∀ s a, (r s).1 = .ok a → d a = 0) : NicePC t n p d r :=
  ⟨h, fun s hs hn a ha => by
    have := (h s hs hn).1.length_le
    have := hd s a ha
    simp only [List.length_cons] at *
    omega⟩

theorem fail {e : DxfErr} (h : t = true → e ≠ .outOfFuel) : NicePC t n p d (Rd.fail e : Rd β) :=
  ⟨NiceP.fail h, fun s _ _ b hb => by simp at hb⟩

theorem bindLift {x : Except DxfErr α} {f : α → Rd β} (h : t = true → Calm x)
    (hf : ∀ a, NicePC t n p d (f a)) : NicePC t n p d (Rd.lift x >>= f) := by
  refine ⟨NiceP.bindLift h fun a => (hf a).1, ?_⟩
  intro s hs hn b hb
  cases x with
  | ok a => exact (hf a).2 s hs hn b hb
  | error e => simp [Rd.run_bind] at hb

theorem bindLift' {x : Except DxfErr α} {f : α → Rd β} (h : t = true → Calm x)
    (hf : ∀ a, x = .ok a → NicePC t n p d (f a)) : NicePC t n p d (Rd.lift x >>= f) := by
  cases x with
  | ok a => exact hf a rfl
  | error e =>
    exact ⟨NiceP.lift (α := β) (x := .error e) fun ht hc => h ht (by cases hc; rfl),
      fun s _ _ b hb => by simp [Rd.run_bind] at hb⟩

theorem ite {c : Prop} [Decidable c] {a b : Rd β} (ha : c → NicePC t n p d a)
    (hb : ¬ c → NicePC t n p d b) : NicePC t n p d (if c then a else b) := by
  by_cases h : c
  · rw [if_pos h]; exact ha h
  · rw [if_neg h]; exact hb h

theorem back {b : β} (hb : d b = 0) : NicePC t n p d (Rd.putBack p >>= fun _ => Pure.pure b) :=
  ofPure (NiceP.bindBack Nice.pure) fun s a ha => by
    cases ha
    exact hb

theorem next {f : CodePair → Rd β} (hf : ∀ p, (t = true → ¬ p.Tricky) → NicePC t n p d (f p)) :
    NiceC t n d (Rd.next >>= f) := by
  refine ⟨Nice.next fun p => NiceP.fine fun hp => (hf p hp).1, ?_⟩
  intro s hs hn b hb
  obtain ⟨h2, h3⟩ := Stream.next_suffix s
  rw [Rd.run_bind, Rd.next] at hb ⊢
  rcases hx : s.next with ⟨x, s'⟩
  rw [hx] at h2 h3 hb
  rcases x with _ | (e | p)
  · simp at hb
  · simp at hb
  · have h4 := h3 _ rfl
    have h6 := h4.length_le
    simp only [List.length_cons] at h6
    have := (hf p (fun ht => (hn _ (h4.subset List.mem_cons_self)).2 ht p rfl)).2 s' (by omega)
      (hn.suffix h4) b hb
    dsimp only at this ⊢
    omega

end NicePC

namespace Calm

theorem ok {α : Type} {a : α} : Calm (.ok a : Except DxfErr α) := by simp [Calm]

theorem map {α β : Type} {f : α → β} {x : Except DxfErr α} (h : Calm x) : Calm (x.map f) := by
  cases x with
  | ok a => simp [Calm, Except.map]
  | error e => simpa [Calm, Except.map] using h

theorem bind {α β : Type} {f : α → Except DxfErr β} {x : Except DxfErr α} (h : Calm x)
    (hf : ∀ a, Calm (f a)) : Calm (x >>= f) := by
  cases x with
  | ok a => exact hf a
  | error e => simpa [Calm, Except.bind, Bind.bind] using h

theorem assertString {p : CodePair} : Calm p.assertString := by
  unfold CodePair.assertString; split <;> simp [Calm]
theorem assertF64 {p : CodePair} : Calm p.assertF64 := by
  unfold CodePair.assertF64; split <;> simp [Calm]
theorem assertI16 {p : CodePair} : Calm p.assertI16 := by
  unfold CodePair.assertI16; split <;> simp [Calm]
theorem assertI32 {p : CodePair} : Calm p.assertI32 := by
  unfold CodePair.assertI32; split <;> simp [Calm]
theorem assertI64 {p : CodePair} : Calm p.assertI64 := by
  unfold CodePair.assertI64; split <;> simp [Calm]
theorem assertBool {p : CodePair} : Calm p.assertBool := by
  unfold CodePair.assertBool; split <;> simp [Calm]
theorem assertBinary {p : CodePair} : Calm p.assertBinary := by
  unfold CodePair.assertBinary; split <;> simp [Calm]

end Calm

end Dxf
