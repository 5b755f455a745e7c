import Verif.Lemmas.After

/-! The bytes of files with something after the mark at their end. -/

namespace Dxf

/-- Empty, or with a line end at the end. -/
def Lined (b : List Byte) : Prop := b = [] ∨ ∃ c, b = c ++ [0x0A#8]

theorem lineBytes_more (a : Bool) (m : List Byte) : ∀ (b : List Byte) (i : Nat) (skip : Bool),
    (∃ c, b = c ++ [0x0A#8]) →
    lineBytes a i skip (b ++ m) =
      ((lineBytes a i skip b).1, (lineBytes a i skip b).2 ++ m) ∧
    Lined (lineBytes a i skip b).2 := by
  intro b
  induction b with
  | nil => intro i skip h; obtain ⟨c, hc⟩ := h; simp at hc
  | cons x b ih =>
    intro i skip h
    obtain ⟨c, hc⟩ := h
    rw [List.cons_append]
    unfold lineBytes
    have tail : b = [] ∧ x = 0x0A#8 ∨ ∃ c, b = c ++ [0x0A#8] := by
      cases c with
      | nil => simp at hc; exact .inl ⟨hc.2, hc.1⟩
      | cons y c => simp at hc; exact .inr ⟨c, hc.2⟩
    by_cases h1 : i = 0 ∧ x = 0xEF#8 ∧ a = true
    · rw [if_pos h1, if_pos h1]
      rcases tail with ⟨_, h2⟩ | h2
      · rw [h2] at h1; exact absurd h1.2.1 (by decide)
      · exact ih _ _ h2
    rw [if_neg h1, if_neg h1]
    by_cases h3 : ((i = 1 ∧ x = 0xBB#8) ∨ (i = 2 ∧ x = 0xBF#8)) ∧ skip = true
    · rw [if_pos h3, if_pos h3]
      rcases tail with ⟨_, h2⟩ | h2
      · rw [h2] at h3
        rcases h3.1 with h | h <;> exact absurd h.2 (by decide)
      · exact ih _ _ h2
    rw [if_neg h3, if_neg h3]
    by_cases h4 : x = 0x0A#8
    · rw [if_pos h4, if_pos h4]
      refine ⟨rfl, ?_⟩
      rcases tail with ⟨h, _⟩ | h
      · exact .inl h
      · exact .inr h
    · rw [if_neg h4, if_neg h4]
      rcases tail with ⟨_, h⟩ | h
      · exact absurd h h4
      · obtain ⟨h5, h6⟩ := ih (i + 1) skip h
        dsimp only
        rw [h5]
        exact ⟨rfl, h6⟩

theorem readLine_more (a : Bool) (enc : Enc) {b : List Byte} (h : ∃ c, b = c ++ [0x0A#8])
    (m : List Byte) : readLine a enc (b ++ m) = ((readLine a enc b).1, (readLine a enc b).2 ++ m) ∧
      Lined (readLine a enc b).2 := by
  obtain ⟨h1, h2⟩ := lineBytes_more a m b 0 false h
  unfold readLine
  dsimp only
  rw [h1]
  dsimp only
  cases decode enc (lineBytes a 0 false b).1 <;> exact ⟨rfl, h2⟩

namespace TextIter

/-- The same iterator with more bytes behind what it has. -/
def more (t : TextIter) (m : List Byte) : TextIter := { t with bytes := t.bytes ++ m }

theorem readValue_more {t : TextIter} (h : ∃ c, t.bytes = c ++ [0x0A#8]) (code : I32)
    (m : List Byte) : (t.more m).readValue code =
      ((t.readValue code).1, (t.readValue code).2.more m) ∧ Lined (t.readValue code).2.bytes ∧
      (t.readValue code).2.firstLine = t.firstLine := by
  obtain ⟨h1, h2⟩ := readLine_more false t.enc h m
  unfold readValue more
  dsimp only
  rw [h1]
  dsimp only
  cases hr : (readLine false t.enc t.bytes).1 with
  | error e => exact ⟨rfl, h2, rfl⟩
  | ok line =>
    dsimp only
    cases ExpectedType.new code.toInt with
    | none => exact ⟨rfl, h2, rfl⟩
    | some ty =>
      dsimp only
      cases parseValue t.enc ty line (t.offset + 1) <;> exact ⟨rfl, h2, rfl⟩

/-- A value that is read where there is nothing left is not a text with characters in it. -/
theorem readValue_end {t : TextIter} (h : t.bytes = []) (code : I32) {e : CodePair}
    (he : (t.readValue code).1 = some (.ok e)) : e.value ≠ .str str!"EOF" := by
  have hr : readLine false t.enc t.bytes = (.ok [], []) := by
    rw [h]
    unfold readLine lineBytes
    have : decode t.enc [] = some [] := by cases t.enc <;> decide +kernel
    dsimp only
    rw [this]
    rfl
  unfold readValue at he
  dsimp only at he
  rw [hr] at he
  dsimp only at he
  cases hty : ExpectedType.new code.toInt with
  | none => rw [hty] at he; cases he
  | some ty =>
    rw [hty] at he
    dsimp only at he
    cases hv : parseValue t.enc ty [] (t.offset + 1) with
    | error e => rw [hv] at he; cases he
    | ok v =>
      rw [hv] at he
      cases he
      dsimp only
      intro hvv
      subst hvv
      unfold parseValue at hv
      cases ty <;> dsimp only at hv
      case str =>
        have : unescapeString (if t.enc = .win1252 then unescapeUnicode [] else []) = [] := by
          split <;> decide +kernel
        rw [this] at hv
        cases hv
      all_goals
        first
        | (cases hp : parseI16 [] (t.offset + 1) <;> rw [hp] at hv <;> cases hv)
        | (cases hp : parseI32 [] (t.offset + 1) <;> rw [hp] at hv <;> cases hv)
        | (cases hp : parseI64 [] (t.offset + 1) <;> rw [hp] at hv <;> cases hv)
        | (cases hp : parseF64 [] (t.offset + 1) <;> rw [hp] at hv <;> cases hv)
        | (cases hp : parseHexString [] (t.offset + 1) <;> rw [hp] at hv <;> cases hv)

theorem next_more {t : TextIter} (h : Lined t.bytes) (hd : t.done = false) (m : List Byte) :
    (t.next.2.done = true ∧ ∀ e, t.next.1 = some (.ok e) → e.value ≠ .str str!"EOF") ∨
    ((t.more m).next = (t.next.1, t.next.2.more m) ∧ Lined t.next.2.bytes ∧
      t.next.2.firstLine = none) := by
  have hc : (t.more m).readCode = (t.readCode.1, t.readCode.2.more m) ∧
      Lined t.readCode.2.bytes ∧ t.readCode.2.firstLine = none := by
    unfold readCode more
    cases hf : t.firstLine with
    | some l => exact ⟨rfl, h, rfl⟩
    | none =>
      dsimp only
      have hb : ∃ c, t.bytes = c ++ [0x0A#8] := by
        rcases h with h | h
        · unfold done at hd; rw [h, hf] at hd; cases hd
        · exact h
      obtain ⟨h1, h2⟩ := readLine_more true .win1252 hb m
      rw [h1]
      exact ⟨rfl, h2, rfl⟩
  obtain ⟨h1, h2, h3⟩ := hc
  unfold next
  rw [h1]
  dsimp only
  cases hr : t.readCode.1 with
  | error e => exact .inr ⟨rfl, h2, h3⟩
  | ok line =>
    dsimp only
    by_cases hl : trim line = []
    · rw [if_pos hl, if_pos hl]; exact .inr ⟨rfl, h2, h3⟩
    rw [if_neg hl, if_neg hl]
    have ho : (t.readCode.2.more m).offset = t.readCode.2.offset := rfl
    rw [ho]
    cases hp : parseI32 (trim line) t.readCode.2.offset with
    | error e => exact .inr ⟨rfl, h2, h3⟩
    | ok code =>
      dsimp only
      rcases h2 with h2 | h2
      · refine .inl ⟨?_, fun e he => readValue_end h2 code he⟩
        have hb : (t.readCode.2.readValue code).2.bytes = [] ∧
            (t.readCode.2.readValue code).2.firstLine = none := by
          unfold readValue
          dsimp only
          rw [h2, h3]
          have : (readLine false t.readCode.2.enc []).2 = [] := by
            unfold readLine lineBytes
            dsimp only
            cases decode t.readCode.2.enc [] <;> rfl
          rw [this]
          cases (readLine false t.readCode.2.enc []).1 with
          | error e => exact ⟨rfl, rfl⟩
          | ok line =>
            dsimp only
            cases ExpectedType.new code.toInt with
            | none => exact ⟨rfl, rfl⟩
            | some ty =>
              dsimp only
              cases parseValue t.readCode.2.enc ty line (t.readCode.2.offset + 1) <;>
                exact ⟨rfl, rfl⟩
        unfold done
        rw [hb.1, hb.2]
        rfl
      · obtain ⟨h4, h5, h6⟩ := readValue_more h2 code m
        exact .inr ⟨h4, h5, h6.trans h3⟩

/-- The items of a text that ends with a mark come first in every longer text. -/
theorem items_more (m : List Byte) (fuel : Nat) : ∀ (t : TextIter) (fuel' : Nat),
    fuel ≤ fuel' → Lined t.bytes →
    ∀ (u : List Item) (e : CodePair), e.value = .str str!"EOF" →
    items fuel t = u ++ [some (.ok e)] →
    ∃ r, items fuel' (t.more m) = u ++ some (.ok e) :: r := by
  induction fuel with
  | zero => intro t f' _ _ u e _ h; simp [items] at h
  | succ fuel ih =>
    intro t f' hf h u e he hi
    obtain ⟨f', rfl⟩ : ∃ k, f' = k + 1 := ⟨f' - 1, by omega⟩
    unfold items at hi
    cases hd : t.done with
    | true => rw [hd] at hi; simp at hi
    | false =>
      rw [hd] at hi
      simp only [Bool.false_eq_true, if_false] at hi
      have hd' : (t.more m).done = false := by
        unfold done more at *
        simp only [Bool.and_eq_false_iff] at hd ⊢
        rcases hd with hd | hd
        · left; simp at hd ⊢; intro h'; exact absurd h' hd
        · exact .inr hd
      unfold items
      rw [hd']
      simp only [Bool.false_eq_true, if_false]
      rcases next_more h hd m with ⟨h1, h2⟩ | ⟨h1, h2, _⟩
      · have : items fuel t.next.2 = [] := by
          cases fuel with
          | zero => rfl
          | succ k => unfold items; rw [if_pos h1]
        rw [this] at hi
        cases u with
        | nil => exact absurd he (h2 e (List.cons.inj hi).1)
        | cons x u => simp at hi
      · rw [h1]
        dsimp only
        cases u with
        | nil =>
          simp only [List.nil_append, List.cons.injEq] at hi
          exact ⟨_, by rw [hi.1]; rfl⟩
        | cons x u =>
          simp only [List.cons_append, List.cons.injEq] at hi
          obtain ⟨r, hr⟩ := ih t.next.2 f' (by omega) h2 u e he hi.2
          exact ⟨r, by rw [hr, hi.1]; rfl⟩

end TextIter

/-! ### Binary files -/

theorem readBytes_more (n : Nat) (b m : List Byte) :
    (∃ e, readBytes n b = (.error e, [])) ∨
      readBytes n (b ++ m) = ((readBytes n b).1, (readBytes n b).2 ++ m) := by
  unfold readBytes
  by_cases h : n ≤ b.length
  · rw [if_pos h, if_pos (by rw [List.length_append]; omega)]
    exact .inr (by rw [List.take_append_of_le_length h, List.drop_append_of_le_length h])
  · rw [if_neg h]
    exact .inl ⟨_, rfl⟩

theorem readStringBin_more (m b : List Byte) :
    (∃ e, readStringBin b = (.error e, [])) ∨
      readStringBin (b ++ m) = ((readStringBin b).1, (readStringBin b).2 ++ m) := by
  induction b with
  | nil => exact .inl ⟨_, rfl⟩
  | cons x b ih =>
    rw [List.cons_append, readStringBin, readStringBin]
    by_cases h : x = 0#8
    · rw [if_pos h, if_pos h]; exact .inr rfl
    rw [if_neg h, if_neg h]
    dsimp only
    rcases ih with ⟨e, h1⟩ | h1
    · rw [h1]; exact .inl ⟨e, rfl⟩
    · rw [h1]; exact .inr rfl

namespace BinIter

/-- The same iterator with more bytes behind what it has. -/
def more (t : BinIter) (m : List Byte) : BinIter := { t with bytes := t.bytes ++ m }

theorem readWord_more (t : BinIter) (n : Nat) (f : Nat → CodePairValue) (m : List Byte) :
    (∃ e, (t.readWord n f).1 = .error e ∧ (t.readWord n f).2.bytes = []) ∨
      (t.more m).readWord n f = ((t.readWord n f).1, (t.readWord n f).2.more m) := by
  unfold readWord more
  dsimp only
  rcases readBytes_more n t.bytes m with ⟨e, h⟩ | h
  · rw [h]; exact .inl ⟨e, rfl, rfl⟩
  · rw [h]; exact .inr rfl

theorem readStr_more (t : BinIter) (code : Int) (m : List Byte) :
    (∃ e, (t.readStr code).1 = .error e ∧ (t.readStr code).2.bytes = []) ∨
      (t.more m).readStr code = ((t.readStr code).1, (t.readStr code).2.more m) := by
  unfold readStr more
  dsimp only
  rcases readStringBin_more m t.bytes with ⟨e, h⟩ | h
  · rw [h]; exact .inl ⟨e, rfl, rfl⟩
  rw [h]
  dsimp only
  rcases hr : readStringBin t.bytes with ⟨x, rest⟩
  dsimp only
  cases x with
  | error e => exact .inr rfl
  | ok v =>
    dsimp only
    by_cases hd : (!t.detected && decide (code = 0) && v.isEmpty) = true
    · rw [if_pos hd, if_pos hd]
      rcases readStringBin_more m rest with ⟨e, h⟩ | h
      · rw [h]; exact .inl ⟨e, rfl, rfl⟩
      rw [h]
      dsimp only
      cases (readStringBin rest).1 <;> exact .inr rfl
    · rw [if_neg hd, if_neg hd]
      exact .inr rfl

theorem readChunk_more (t : BinIter) (m : List Byte) :
    (∃ e, t.readChunk.1 = .error e ∧ t.readChunk.2.bytes = []) ∨
      (t.more m).readChunk = (t.readChunk.1, t.readChunk.2.more m) := by
  unfold readChunk more
  dsimp only
  rcases readBytes_more 1 t.bytes m with ⟨e, h⟩ | h
  · rw [h]; exact .inl ⟨e, rfl, rfl⟩
  rw [h]
  dsimp only
  rcases hr : readBytes 1 t.bytes with ⟨x, rest⟩
  dsimp only
  cases x with
  | error e => exact .inr rfl
  | ok l =>
    dsimp only
    rcases readBytes_more (leVal l) rest m with ⟨e, h⟩ | h
    · rw [h]; exact .inl ⟨e, rfl, rfl⟩
    · rw [h]; exact .inr rfl

theorem readValue_more (t : BinIter) (code : Int) (ty : ExpectedType) (m : List Byte) :
    (∃ e, (t.readValue code ty).1 = .error e ∧ (t.readValue code ty).2.bytes = []) ∨
      (t.more m).readValue code ty = ((t.readValue code ty).1, (t.readValue code ty).2.more m) := by
  unfold readValue
  cases ty with
  | boolean =>
    dsimp only
    rw [show (t.more m).wide = t.wide from rfl]
    split <;> exact readWord_more _ _ _ _
  | str => exact readStr_more _ _ _
  | binary => exact readChunk_more _ _
  | _ => exact readWord_more _ _ _ _

theorem readCode_more (t : BinIter) (h : t.bytes ≠ []) (m : List Byte) :
    (∃ e, t.readCode.1 = some (.error e) ∧ t.readCode.2.bytes = []) ∨
      (t.more m).readCode = (t.readCode.1, t.readCode.2.more m) := by
  rcases t with ⟨bs, detected, wide, offset⟩
  cases bs with
  | nil => exact absurd rfl h
  | cons b bs =>
    unfold readCode more
    dsimp only [List.cons_append]
    cases wide with
    | true =>
      simp only [if_true]
      rcases readBytes_more 1 bs m with ⟨e, h⟩ | h
      · rw [h]; exact .inl ⟨e, rfl, rfl⟩
      rw [h]
      dsimp only
      cases (readBytes 1 bs).1 <;> exact .inr rfl
    | false =>
      simp only [Bool.false_eq_true, if_false]
      by_cases hb : b = 255#8
      · rw [if_pos hb, if_pos hb]
        rcases readBytes_more 2 bs m with ⟨e, h⟩ | h
        · rw [h]; exact .inl ⟨e, rfl, rfl⟩
        rw [h]
        dsimp only
        cases (readBytes 2 bs).1 <;> exact .inr rfl
      · rw [if_neg hb, if_neg hb]
        exact .inr rfl

theorem next_more (t : BinIter) (h : t.bytes ≠ []) (m : List Byte) :
    (∃ e, t.next.1 = some (.error e) ∧ t.next.2.bytes = []) ∨
      (t.more m).next = (t.next.1, t.next.2.more m) := by
  unfold next
  dsimp only
  rcases readCode_more t h m with ⟨e, h1, h2⟩ | h1
  · rw [h1]; exact .inl ⟨e, rfl, h2⟩
  rw [h1]
  dsimp only
  cases hc : t.readCode.1 with
  | none => exact .inr rfl
  | some x =>
    cases x with
    | error e => exact .inr rfl
    | ok code =>
      dsimp only
      cases hty : ExpectedType.new code with
      | none => exact .inr rfl
      | some ty =>
        dsimp only
        rcases readValue_more t.readCode.2 code ty m with ⟨e, h3, h4⟩ | h3
        · rw [h3]; exact .inl ⟨e, rfl, h4⟩
        · rw [h3]
          dsimp only
          cases (t.readCode.2.readValue code ty).1 <;> exact .inr rfl

theorem items_more (m : List Byte) (fuel : Nat) : ∀ (t : BinIter) (fuel' : Nat),
    fuel ≤ fuel' → ∀ (u : List Item) (e : CodePair),
    items fuel t = u ++ [some (.ok e)] →
    ∃ r, items fuel' (t.more m) = u ++ some (.ok e) :: r := by
  induction fuel with
  | zero => intro t f' _ u e h; simp [items] at h
  | succ fuel ih =>
    intro t f' hf u e hi
    obtain ⟨f', rfl⟩ : ∃ k, f' = k + 1 := ⟨f' - 1, by omega⟩
    unfold items at hi
    by_cases hd : t.bytes = []
    · rw [hd] at hi; simp at hi
    have hd1 : t.bytes.isEmpty = false := by simpa using hd
    have hd2 : (t.more m).bytes.isEmpty = false := by
      unfold more
      simp [hd]
    rw [hd1] at hi
    simp only [Bool.false_eq_true, if_false] at hi
    unfold items
    rw [hd2]
    simp only [Bool.false_eq_true, if_false]
    rcases next_more t hd m with ⟨e', h1, h2⟩ | h1
    · have : items fuel t.next.2 = [] := by
        cases fuel with
        | zero => rfl
        | succ k => unfold items; rw [h2]; rfl
      rw [this] at hi
      cases u with
      | nil =>
        have := (List.cons.inj hi).1
        rw [h1] at this
        cases this
      | cons x u => simp at hi
    · rw [h1]
      dsimp only
      cases u with
      | nil =>
        simp only [List.nil_append, List.cons.injEq] at hi
        exact ⟨_, by rw [hi.1]; rfl⟩
      | cons x u =>
        simp only [List.cons_append, List.cons.injEq] at hi
        obtain ⟨r, hr⟩ := ih t.next.2 f' (by omega) u e hi.2
        exact ⟨r, by rw [hr, hi.1]; rfl⟩

end BinIter

/-! ### Files -/

theorem fileItems_more {enc : Enc} {c m : List Byte} {u u' : List Item} {e e' : CodePair}
    (he : e.IsEof) (he' : e'.IsEof)
    (h : fileItems enc (c ++ [0x0A#8]) = .ok (some (u ++ [some (.ok e)], u' ++ [some (.ok e')]))) :
    ∃ r r', fileItems enc (c ++ [0x0A#8] ++ m) =
      .ok (some (u ++ some (.ok e) :: r, u' ++ some (.ok e') :: r')) := by
  obtain ⟨h1, h2⟩ := readLine_more true enc ⟨c, rfl⟩ m
  unfold fileItems at h ⊢
  dsimp only at h ⊢
  rw [h1]
  dsimp only
  cases hl : (readLine true enc (c ++ [0x0A#8])).1 with
  | error e => rw [hl] at h; cases h
  | ok l =>
    rw [hl] at h
    dsimp only at h ⊢
    by_cases hx : l = str!"AutoCAD DXB 1.0"
    · rw [if_pos hx] at h; cases h
    rw [if_neg hx] at h ⊢
    revert h h2
    generalize (readLine true enc (c ++ [0x0A#8])).2 = b
    intro h2 h
    unfold newPairIter at h ⊢
    by_cases hb : l = str!"AutoCAD Binary DXF"
    · rw [if_pos hb] at h ⊢
      rcases b with _ | ⟨b1, _ | ⟨b2, bs⟩⟩
      · cases h
      · exfalso
        dsimp only at h
        split at h <;> cases h
      · dsimp only [List.cons_append] at h ⊢
        by_cases h3 : b1 ≠ 0x1A#8
        · rw [if_pos h3] at h; cases h
        rw [if_neg h3] at h ⊢
        by_cases h4 : b2 ≠ 0#8
        · rw [if_pos h4] at h; cases h
        rw [if_neg h4] at h ⊢
        have h5 := (Prod.mk.inj (Option.some.inj (Except.ok.inj h)))
        obtain ⟨r, hr⟩ := BinIter.items_more m _ ⟨bs, false, false, 20⟩ ((bs ++ m).length + 1)
          (by simp) u e h5.1
        obtain ⟨r', hr'⟩ := BinIter.items_more m _ ⟨bs, false, false, 20⟩ ((bs ++ m).length + 1)
          (by simp) u' e' h5.2
        refine ⟨r, r', ?_⟩
        change Except.ok (some (_, _)) = _
        rw [← hr, ← hr']
        rfl
    · rw [if_neg hb] at h ⊢
      have h5 := (Prod.mk.inj (Option.some.inj (Except.ok.inj h)))
      obtain ⟨r, hr⟩ := TextIter.items_more m _ ⟨b, enc, some l, 1⟩ ((b ++ m).length + 1)
        (by simp) h2 u e he.2 h5.1
      obtain ⟨r', hr'⟩ := TextIter.items_more m _ (TextIter.readAsUtf8 ⟨b, enc, some l, 1⟩)
        ((b ++ m).length + 1) (by simp [TextIter.readAsUtf8]) h2 u' e' he'.2 h5.2
      refine ⟨r, r', ?_⟩
      change Except.ok (some (_, _)) = _
      rw [← hr, ← hr']
      rfl

end Dxf
