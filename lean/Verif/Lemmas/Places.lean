import Verif.Lemmas.ToldFile

/-! The lines the pairs of a text file come from. -/

namespace Dxf

/-- The first line, and the lines that follow. -/
theorem lineBytes_lines (a : Bool) (bs : List Byte) : ∀ (i : Nat) (skip : Bool),
    ∃ l, ((linesOf bs)[0]? = some l ∨ linesOf bs = [] ∧ l = []) ∧
      (lineBytes a i skip bs).1 = (lineBytes a i skip l).1 ∧
      linesOf (lineBytes a i skip bs).2 = (linesOf bs).drop 1 := by
  induction bs with
  | nil => exact fun i skip => ⟨[], .inr ⟨rfl, rfl⟩, rfl, rfl⟩
  | cons b bs ih =>
    intro i skip
    by_cases hb : b = 0x0A#8
    · subst hb
      refine ⟨[], .inl ?_, ?_, ?_⟩
      · simp [linesOf]
      · simp [lineBytes]
      · simp [lineBytes, linesOf]
    · have hl : ∀ l, ((linesOf bs)[0]? = some l ∨ linesOf bs = [] ∧ l = []) →
          (linesOf (b :: bs))[0]? = some (b :: l) ∧
            (linesOf (b :: bs)).drop 1 = (linesOf bs).drop 1 := by
        intro l hl
        rw [linesOf, if_neg hb]
        cases hx : linesOf bs with
        | nil =>
          rw [hx] at hl
          rcases hl with h | ⟨_, rfl⟩
          · simp at h
          · exact ⟨rfl, rfl⟩
        | cons y ys =>
          rw [hx] at hl
          rcases hl with h | ⟨h, _⟩
          · simp only [List.getElem?_cons_zero, Option.some.injEq] at h
            subst h
            exact ⟨rfl, rfl⟩
          · simp at h
      by_cases h1 : i = 0 ∧ b = 0xEF#8 ∧ a = true
      · obtain ⟨l, h2, h3, h4⟩ := ih (i + 1) true
        refine ⟨b :: l, .inl (hl l h2).1, ?_, ?_⟩
        · rw [lineBytes, if_pos h1, lineBytes, if_pos h1]; exact h3
        · rw [lineBytes, if_pos h1, (hl l h2).2]; exact h4
      · by_cases h5 : ((i = 1 ∧ b = 0xBB#8) ∨ (i = 2 ∧ b = 0xBF#8)) ∧ skip = true
        · obtain ⟨l, h2, h3, h4⟩ := ih (i + 1) skip
          refine ⟨b :: l, .inl (hl l h2).1, ?_, ?_⟩
          · rw [lineBytes, if_neg h1, if_pos h5, lineBytes, if_neg h1, if_pos h5]; exact h3
          · rw [lineBytes, if_neg h1, if_pos h5, (hl l h2).2]; exact h4
        · obtain ⟨l, h2, h3, h4⟩ := ih (i + 1) skip
          refine ⟨b :: l, .inl (hl l h2).1, ?_, ?_⟩
          · rw [lineBytes, if_neg h1, if_neg h5, if_neg hb, lineBytes, if_neg h1, if_neg h5,
              if_neg hb]
            exact congrArg (b :: ·) h3
          · rw [lineBytes, if_neg h1, if_neg h5, if_neg hb, (hl l h2).2]
            exact h4

/-- What is left after `k` lines. -/
def Behind (file : List Byte) (k : Nat) (bs : List Byte) : Prop := linesOf bs = (linesOf file).drop k

theorem readLine_behind {file bs : List Byte} {k : Nat} (h : Behind file k bs) (a : Bool)
    (enc : Enc) : (∃ l, Line file (k + 1) l ∧ (readLine a enc bs).1 = (readLine a enc l).1) ∧
      Behind file (k + 1) (readLine a enc bs).2 := by
  obtain ⟨l, h2, h3, h4⟩ := lineBytes_lines a bs 0 false
  have hr : (readLine a enc bs).1 = (readLine a enc l).1 := by
    unfold readLine
    dsimp only
    rw [h3]
    split <;> rfl
  have hs : (readLine a enc bs).2 = (lineBytes a 0 false bs).2 := by
    unfold readLine
    dsimp only
    split <;> rfl
  refine ⟨⟨l, ⟨by omega, ?_⟩, hr⟩, ?_⟩
  · rw [h] at h2
    rcases h2 with h2 | ⟨h2, rfl⟩
    · left
      rwa [List.getElem?_drop] at h2
    · right
      have := congrArg List.length h2
      rw [List.length_drop, List.length_nil] at this
      exact ⟨by omega, rfl⟩
  · unfold Behind
    rw [hs, h4, h, List.drop_drop]

/-- An item of a text file: a pair that is written there, or an error that says what is wrong. -/
def Traced (file : List Byte) : Item → Prop
  | some (.ok p) => PairLines file p
  | some (.error e) => e.place = none ∧ e ≠ .outOfFuel ∨ ∃ n, e.place = some n ∧ Points file e n
  | none => True

theorem parseI32_place {s : Str} {n : Nat} {e : DxfErr} (h : parseI32 s n = .error e) :
    e.place = some n := by
  unfold parseI32 at h
  split at h <;> cases h
  rfl

theorem parseI64_place {s : Str} {n : Nat} {e : DxfErr} (h : parseI64 s n = .error e) :
    e.place = some n := by
  unfold parseI64 at h
  split at h <;> cases h
  rfl

theorem parseI16_place {s : Str} {n : Nat} {e : DxfErr} (h : parseI16 s n = .error e) :
    e.place = some n := by
  unfold parseI16 at h
  split at h <;> cases h
  rfl

theorem parseF64_place {s : Str} {n : Nat} {e : DxfErr} (h : parseF64 s n = .error e) :
    e.place = some n := by
  unfold parseF64 at h
  split at h <;> cases h
  rfl

theorem parseHexLoop_place {n : Nat} {e : DxfErr} (s : Str) : ∀ b m,
    parseHexLoop n b m s = .error e → e.place = some n := by
  induction s with
  | nil => intro b m h; cases h
  | cons c s ih =>
    intro b m h
    unfold parseHexLoop at h
    split at h
    · cases h; rfl
    · split at h
      · split at h
        · cases h
        · rename_i h'
          cases h
          exact ih _ _ h'
      · exact ih _ _ h

theorem map_error {α β : Type} {f : α → β} {x : Except DxfErr α} {e : DxfErr}
    (h : x.map f = .error e) : x = .error e := by
  cases x <;> cases h
  rfl

theorem parseValue_place {enc : Enc} {ty : ExpectedType} {s : Str} {n : Nat} {e : DxfErr}
    (h : TextIter.parseValue enc ty s n = .error e) : e.place = some n := by
  cases ty
  case boolean => exact parseI16_place (map_error h)
  case integer => exact parseI32_place (map_error h)
  case long => exact parseI64_place (map_error h)
  case short => exact parseI16_place (map_error h)
  case double => exact parseF64_place (map_error h)
  case str => cases h
  case binary => exact parseHexLoop_place _ _ _ (map_error h)

theorem readLine_place {a : Bool} {enc : Enc} {bs : List Byte} {e : DxfErr}
    (h : (readLine a enc bs).1 = .error e) : e = .malformedString := by
  unfold readLine at h
  dsimp only at h
  split at h
  · cases h
  · cases h; rfl

theorem readValue_first (t : TextIter) (code : I32) : (t.readValue code).2.firstLine = t.firstLine := by
  unfold TextIter.readValue
  dsimp only
  split
  · rfl
  · split
    · rfl
    · split <;> rfl

theorem readValue_traced {file : List Byte} {t : TextIter} (h : Behind file t.offset t.bytes)
    {code : I32} (hc : CodeLine file t.offset code.toInt) :
    Traced file (t.readValue code).1 ∧
      Behind file (t.readValue code).2.offset (t.readValue code).2.bytes := by
  obtain ⟨⟨l, h1, h2⟩, h3⟩ := readLine_behind h false t.enc
  unfold TextIter.readValue
  dsimp only
  cases hr : (readLine false t.enc t.bytes).1 with
  | error e =>
    refine ⟨.inl ?_, h3⟩
    rw [readLine_place hr]
    exact ⟨rfl, by simp⟩
  | ok line =>
    dsimp only
    cases ht : ExpectedType.new code.toInt with
    | none => exact ⟨.inr ⟨_, rfl, .unknown hc ht⟩, h3⟩
    | some ty =>
      dsimp only
      have hv : ∀ v, TextIter.parseValue t.enc ty line (t.offset + 1) = v →
          ValueLine file (t.offset + 1) ty v := fun v hv =>
        ⟨t.enc, l, line, h1, by rw [← h2, hr], hv⟩
      cases hp : TextIter.parseValue t.enc ty line (t.offset + 1) with
      | error e => exact ⟨.inr ⟨_, parseValue_place hp, .value hc ht (hv _ hp)⟩, h3⟩
      | ok v => exact ⟨⟨hc, ty, ht, hv _ hp⟩, h3⟩

/-- The iterator stands behind line `t.offset`, or at the beginning of line `t.offset`, which has been
read. -/
structure Stands (file : List Byte) (t : TextIter) : Prop where
  rest : Behind file t.offset t.bytes
  first : ∀ s, t.firstLine = some s → ∃ enc l, Line file t.offset l ∧ (readLine true enc l).1 = .ok s

theorem next_traced {file : List Byte} {t : TextIter} (h : Stands file t) :
    Traced file t.next.1 ∧ Stands file t.next.2 := by
  have hr : (∀ e, t.readCode.1 = .error e → e = .malformedString) ∧
      (∀ s, t.readCode.1 = .ok s → ∃ enc l, Line file t.readCode.2.offset l ∧
        (readLine true enc l).1 = .ok s) ∧
      Behind file t.readCode.2.offset t.readCode.2.bytes ∧ t.readCode.2.firstLine = none := by
    unfold TextIter.readCode
    cases hf : t.firstLine with
    | some s =>
      dsimp only
      refine ⟨fun e he => (by cases he), fun s' hs => ?_, h.rest, rfl⟩
      cases hs
      exact h.first s hf
    | none =>
      obtain ⟨⟨l, h1, h2⟩, h3⟩ := readLine_behind h.rest true .win1252
      exact ⟨fun e he => readLine_place he, fun s hs => ⟨_, l, h1, by rw [← h2]; exact hs⟩, h3, rfl⟩
  obtain ⟨h1, h2, h3, h4⟩ := hr
  unfold TextIter.next
  dsimp only
  generalize t.readCode = r at h1 h2 h3 h4
  obtain ⟨x, u⟩ := r
  have hu : Stands file u := ⟨h3, fun s hs => by rw [h4] at hs; cases hs⟩
  cases x with
  | error e => exact ⟨.inl (by rw [h1 e rfl]; exact ⟨rfl, by simp⟩), hu⟩
  | ok line =>
    obtain ⟨enc, l, h5, h6⟩ := h2 line rfl
    dsimp only
    split
    · exact ⟨trivial, hu⟩
    · rename_i hne
      cases hp : parseI32 (trim line) u.offset with
      | error e => exact ⟨.inr ⟨_, parseI32_place hp, .code h5 h6 hne hp⟩, hu⟩
      | ok code =>
        have := readValue_traced h3 (code := code) ⟨enc, l, line, code, h5, h6, hp, rfl⟩
        refine ⟨this.1, this.2, fun s hs => ?_⟩
        rw [readValue_first, h4] at hs
        cases hs

theorem items_traced {file : List Byte} (fuel : Nat) : ∀ {t : TextIter}, Stands file t →
    ∀ it ∈ t.items fuel, Traced file it := by
  induction fuel with
  | zero => intro t _ it h; cases h
  | succ fuel ih =>
    intro t ht it h
    obtain ⟨h1, h2⟩ := next_traced ht
    unfold TextIter.items at h
    split at h
    · cases h
    · rcases List.mem_cons.mp h with rfl | h
      · exact h1
      · exact ih h2 it h

end Dxf
