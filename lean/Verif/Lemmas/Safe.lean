import Verif.Spec.Harmless
import Verif.Lemmas.Good
import Verif.Lemmas.Nice

/-! Readers of harmless streams do not panic. -/

namespace Dxf

/-- Not a panic. -/
def Sane {α : Type} (x : Except DxfErr α) : Prop := x ≠ .error .panic

namespace Sane

variable {α β : Type}

theorem ok {a : α} : Sane (.ok a : Except DxfErr α) := by simp [Sane]

theorem good {x : Except DxfErr α} (h : GoodE x) : Sane x := fun hc => h _ hc (.inl rfl)

theorem map {f : α → β} {x : Except DxfErr α} (h : Sane x) : Sane (x.map f) := by
  cases x with
  | ok a => simp [Sane, Except.map]
  | error e => simpa [Sane, Except.map] using h

theorem bind {f : α → Except DxfErr β} {x : Except DxfErr α} (h : Sane x)
    (hf : ∀ a, x = .ok a → Sane (f a)) : Sane (x >>= f) := by
  cases x with
  | ok a => exact hf a rfl
  | error e => simpa [Sane, Except.bind, Bind.bind] using h

theorem assertString {p : CodePair} : Sane p.assertString := good (.assertString p)
theorem assertF64 {p : CodePair} : Sane p.assertF64 := good (.assertF64 p)
theorem assertI16 {p : CodePair} : Sane p.assertI16 := good (.assertI16 p)
theorem assertI32 {p : CodePair} : Sane p.assertI32 := good (.assertI32 p)
theorem assertI64 {p : CodePair} : Sane p.assertI64 := good (.assertI64 p)
theorem assertBool {p : CodePair} : Sane p.assertBool := good (.assertBool p)
theorem assertBinary {p : CodePair} : Sane p.assertBinary := good (.assertBinary p)
theorem asHandle {p : CodePair} : Sane p.asHandle := good (.asHandle p)

end Sane

/-! ### Harmless streams -/

theorem ValueOf.mono {s s' : Stream} {name : Str} {p : CodePair} (h : ValueOf s' name p)
    (hs : s' <:+ s) : ValueOf s name p := by
  obtain ⟨t, rfl⟩ := hs
  obtain ⟨b, n, m, a, rfl, h⟩ := h
  exact ⟨t ++ b, n, m, a, by simp, h⟩

theorem InItem.mono {s s' : Stream} {type : Str} {m : Stream} {q : CodePair}
    (h : InItem s' type m q) (hs : s' <:+ s) : InItem s type m q := by
  obtain ⟨t, rfl⟩ := hs
  obtain ⟨b, p, a, rfl, h⟩ := h
  exact ⟨t ++ b, p, a, by simp, h⟩

theorem Harmless.suffix {room : Nat} {s s' : Stream} (h : Harmless room s) (hs : s' <:+ s) :
    Harmless room s' where
  items hc := h.items (hs.subset hc)
  colors b q hq := h.colors b q (hq.mono hs)
  tables b q hq := h.tables b q (hq.mono hs)
  layerIndexes b q f hq := h.layerIndexes b q f (hq.mono hs)
  spatialIndexes b q f hq := h.spatialIndexes b q f (hq.mono hs)
  studies b q n hq := h.studies b q n (hq.mono hs)
  dates name hn p f hv := h.dates name hn p f (hv.mono hs)
  handles p x hv := h.handles p x (hv.mono hs)
  pictures before p after b he := by
    obtain ⟨t, rfl⟩ := hs
    exact h.pictures (t ++ before) p after b (by rw [he]; simp)

/-! ### Results -/

/-- The result of a reader that has not panicked, with a tail of `s0` left, and `Q` of the value
and of what is left. -/
def Ends {α : Type} (s0 : Stream) (Q : α → Stream → Prop) (x : Except DxfErr α × Stream) : Prop :=
  Sane x.1 ∧ x.2 <:+ s0 ∧ ∀ a, x.1 = .ok a → Q a x.2

/-- Nothing more is said of the value. -/
def Any {α : Type} (_ : α) (_ : Stream) : Prop := True

namespace Ends

variable {α β : Type} {s0 s s' : Stream} {Q : α → Stream → Prop} {R : β → Stream → Prop}

theorem weaken {x : Except DxfErr α × Stream} (h : Ends s' Q x) (hs : s' <:+ s0) : Ends s0 Q x :=
  ⟨h.1, h.2.1.trans hs, h.2.2⟩

theorem imp {Q' : α → Stream → Prop} {x : Except DxfErr α × Stream} (h : Ends s0 Q x)
    (hq : ∀ a s, s <:+ s0 → Q a s → Q' a s) : Ends s0 Q' x :=
  ⟨h.1, h.2.1, fun a ha => hq a _ h.2.1 (h.2.2 a ha)⟩

theorem any {x : Except DxfErr α × Stream} (h : Ends s0 Q x) : Ends s0 Any x :=
  h.imp fun _ _ _ _ => trivial

theorem pure {a : α} (hs : s <:+ s0) (h : Q a s) : Ends s0 Q ((Pure.pure a : Rd α) s) :=
  ⟨by simp [Sane], hs, fun b hb => by cases hb; exact h⟩

theorem fail {e : DxfErr} (hs : s <:+ s0) (h : e ≠ .panic) : Ends s0 Q ((Rd.fail e : Rd α) s) :=
  ⟨by simpa [Sane] using h, hs, fun b hb => by simp at hb⟩

theorem lift {x : Except DxfErr α} (hs : s <:+ s0) (h : Sane x) (hq : ∀ a, x = .ok a → Q a s) :
    Ends s0 Q (Rd.lift x s) :=
  ⟨h, hs, hq⟩

theorem bind {m : Rd α} {f : α → Rd β} (hm : Ends s0 Q (m s))
    (hf : ∀ a s', s' <:+ s0 → Q a s' → Ends s0 R (f a s')) : Ends s0 R ((m >>= f) s) := by
  rw [Rd.run_bind]
  obtain ⟨h1, h2, h3⟩ := hm
  rcases hms : m s with ⟨x, s'⟩
  rw [hms] at h1 h2 h3
  cases x with
  | ok a => exact hf a s' h2 (h3 a rfl)
  | error e => exact ⟨fun hc => h1 (by cases hc; rfl), h2, fun b hb => by cases hb⟩

theorem bindLift {x : Except DxfErr α} {f : α → Rd β} (hs : s <:+ s0) (h : Sane x)
    (hf : ∀ a, x = .ok a → Ends s0 R (f a s)) : Ends s0 R ((Rd.lift x >>= f) s) := by
  cases x with
  | ok a => exact hf a rfl
  | error e => exact ⟨fun hc => h (by cases hc; rfl), hs, fun b hb => by cases hb⟩

theorem bindBack {p : CodePair} {f : Unit → Rd β} (hf : Ends s0 R (f () (some (.ok p) :: s))) :
    Ends s0 R ((Rd.putBack p >>= f) s) := hf

theorem ite {c : Prop} [Decidable c] {a b : Rd α} (ha : c → Ends s0 Q (a s))
    (hb : ¬ c → Ends s0 Q (b s)) : Ends s0 Q ((if c then a else b) s) := by
  by_cases h : c
  · rw [if_pos h]; exact ha h
  · rw [if_neg h]; exact hb h

theorem next {room : Nat} {f : CodePair → Rd β} (h0 : Harmless room s0) (hs : s <:+ s0)
    (hf : ∀ p s', some (.ok p) :: s' <:+ s0 → s'.length < s.length → Ends s0 R (f p s')) :
    Ends s0 R ((Rd.next >>= f) s) := by
  obtain ⟨h2, h3⟩ := Stream.next_suffix s
  rw [Rd.run_bind, Rd.next]
  rcases hx : s.next with ⟨x, s'⟩
  rw [hx] at h2 h3
  rcases x with _ | (e | p)
  · exact ⟨by simp [Sane], h2.trans hs, fun b hb => by cases hb⟩
  · refine ⟨fun hc => ?_, h2.trans hs, fun b hb => by cases hb⟩
    cases hc
    exact h0.items (((h3 _ rfl).trans hs).subset List.mem_cons_self)
  · have h4 := h3 _ rfl
    exact hf p s' (h4.trans hs) (Nat.lt_of_succ_le (by simpa using h4.length_le))

theorem next? {room : Nat} {f : Option CodePair → Rd β} (h0 : Harmless room s0) (hs : s <:+ s0)
    (hn : ∀ s', s' <:+ s → Ends s0 R (f none s'))
    (hf : ∀ p s', some (.ok p) :: s' <:+ s0 → s'.length < s.length → Ends s0 R (f (some p) s')) :
    Ends s0 R ((Rd.next? >>= f) s) := by
  obtain ⟨h2, h3⟩ := Stream.next_suffix s
  rw [Rd.run_bind, Rd.next?]
  rcases hx : s.next with ⟨x, s'⟩
  rw [hx] at h2 h3
  rcases x with _ | (e | p)
  · exact hn s' h2
  · refine ⟨fun hc => ?_, h2.trans hs, fun b hb => by cases hb⟩
    cases hc
    exact h0.items (((h3 _ rfl).trans hs).subset List.mem_cons_self)
  · have h4 := h3 _ rfl
    exact hf p s' (h4.trans hs) (Nat.lt_of_succ_le (by simpa using h4.length_le))

end Ends

/-- A reader that does not panic on harmless streams. -/
def Safe {α : Type} (room : Nat) (r : Rd α) : Prop := ∀ s, Harmless room s → Ends s Any (r s)

namespace Safe

variable {α β : Type} {room : Nat} {s0 s : Stream}

theorem on {r : Rd α} (h : Safe room r) (h0 : Harmless room s0) (hs : s <:+ s0) :
    Ends s0 Any (r s) := (h s (h0.suffix hs)).weaken hs

theorem pure {a : α} : Safe room (Pure.pure a : Rd α) :=
  fun s _ => .pure (List.suffix_refl s) trivial

theorem fail {e : DxfErr} (h : e ≠ .panic) : Safe room (Rd.fail e : Rd α) :=
  fun s _ => .fail (List.suffix_refl s) h

theorem lift {x : Except DxfErr α} (h : Sane x) : Safe room (Rd.lift x) :=
  fun s _ => .lift (List.suffix_refl s) h fun _ _ => trivial

theorem bind {m : Rd α} {f : α → Rd β} (hm : Safe room m) (hf : ∀ a, Safe room (f a)) :
    Safe room (m >>= f) :=
  fun s h => (hm s h).bind fun a s' hs _ => (hf a).on h hs

theorem bindLift {x : Except DxfErr α} {f : α → Rd β} (h : Sane x)
    (hf : ∀ a, Safe room (f a)) : Safe room (Rd.lift x >>= f) := bind (lift h) hf

theorem ite {c : Prop} [Decidable c] {a b : Rd α} (ha : c → Safe room a)
    (hb : ¬ c → Safe room b) : Safe room (if c then a else b) := by
  by_cases h : c
  · rw [if_pos h]; exact ha h
  · rw [if_neg h]; exact hb h

theorem withFuel {f : Nat → Rd α} (h : ∀ k, Safe room (f k)) : Safe room (Rd.withFuel f) :=
  fun s hs => h (s.length + 1) s hs

/-- A reader that runs after the pair `p` has been read, and may put it back. -/
def After (room : Nat) (p : CodePair) (r : Rd α) : Prop :=
  ∀ s, Harmless room (some (.ok p) :: s) → Ends (some (.ok p) :: s) Any (r s)

theorem next {f : CodePair → Rd β} (hf : ∀ p, After room p (f p)) : Safe room (Rd.next >>= f) :=
  fun s h => .next h (List.suffix_refl s) fun p s' hs _ => (hf p s' (h.suffix hs)).weaken hs

theorem next? {f : Option CodePair → Rd β} (hn : Safe room (f none))
    (hf : ∀ p, After room p (f (some p))) : Safe room (Rd.next? >>= f) :=
  fun s h => .next? h (List.suffix_refl s) (fun s' hs => hn.on h hs)
    fun p s' hs _ => (hf p s' (h.suffix hs)).weaken hs

end Safe

namespace Safe.After

variable {α β : Type} {room : Nat} {p : CodePair}

theorem drop {r : Rd α} (h : Safe room r) : After room p r :=
  fun _ hs => h.on hs (List.suffix_cons _ _)

theorem pure {a : α} : After room p (Pure.pure a : Rd α) := drop Safe.pure

theorem fail {e : DxfErr} (h : e ≠ .panic) : After room p (Rd.fail e : Rd α) := drop (Safe.fail h)

theorem lift {x : Except DxfErr α} (h : Sane x) : After room p (Rd.lift x) := drop (Safe.lift h)

theorem bindLift {x : Except DxfErr α} {f : α → Rd β} (h : Sane x)
    (hf : ∀ a, x = .ok a → After room p (f a)) : After room p (Rd.lift x >>= f) :=
  fun s hs => .bindLift (List.suffix_cons _ _) h fun a ha => hf a ha s hs

theorem bind {m : Rd α} {f : α → Rd β} (hm : Safe room m) (hf : ∀ a, Safe room (f a)) :
    After room p (m >>= f) := drop (Safe.bind hm hf)

theorem putBack : After room p (Rd.putBack p) :=
  fun s _ => ⟨by simp [Sane], List.suffix_refl _, fun _ _ => trivial⟩

theorem bindBack {f : Unit → Rd β} (hf : Safe room (f ())) :
    After room p (Rd.putBack p >>= f) :=
  fun s hs => hf (some (.ok p) :: s) hs

theorem ite {c : Prop} [Decidable c] {a b : Rd α} (ha : c → After room p a)
    (hb : ¬ c → After room p b) : After room p (if c then a else b) := by
  by_cases h : c
  · rw [if_pos h]; exact ha h
  · rw [if_neg h]; exact hb h

end Safe.After

end Dxf
