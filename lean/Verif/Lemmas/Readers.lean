import Verif.Lemmas.BinCodec
import Verif.Model.PutBack

/-! Totality and progress of the pair readers. -/

namespace Dxf

/-! ### Text reader -/

theorem parseValue_type {enc : Enc} {ty : ExpectedType} {line : Str} {off : Nat}
    {v : CodePairValue} (h : TextIter.parseValue enc ty line off = .ok v) : v.type = ty := by
  unfold TextIter.parseValue at h
  cases ty <;> simp only at h
  case str => simp only [Except.ok.injEq] at h; subst h; rfl
  case boolean => cases hp : parseI16 line off <;> rw [hp] at h <;> simp [Except.map] at h; subst h; rfl
  case short => cases hp : parseI16 line off <;> rw [hp] at h <;> simp [Except.map] at h; subst h; rfl
  case integer => cases hp : parseI32 line off <;> rw [hp] at h <;> simp [Except.map] at h; subst h; rfl
  case long => cases hp : parseI64 line off <;> rw [hp] at h <;> simp [Except.map] at h; subst h; rfl
  case double => cases hp : parseF64 line off <;> rw [hp] at h <;> simp [Except.map] at h; subst h; rfl
  case binary =>
    cases hp : parseHexString line off <;> rw [hp] at h <;> simp [Except.map] at h; subst h; rfl

/-- State after the value line. -/
theorem readValue_state (t : TextIter) (code : I32) :
    (t.readValue code).2 =
      { t with offset := t.offset + 1, bytes := (readLine false t.enc t.bytes).2 } := by
  unfold TextIter.readValue
  simp only
  split
  · rfl
  · split
    · rfl
    · split <;> rfl

theorem readValue_some (t : TextIter) (code : I32) : ∃ r, (t.readValue code).1 = some r := by
  unfold TextIter.readValue
  simp only
  split
  · exact ⟨_, rfl⟩
  · split
    · exact ⟨_, rfl⟩
    · split <;> exact ⟨_, rfl⟩

theorem readValue_pair {t : TextIter} {code : I32} {p : CodePair}
    (h : (t.readValue code).1 = some (.ok p)) :
    p.WellTyped ∧ p.offset = t.offset ∧ p.code = code.toInt := by
  unfold TextIter.readValue at h
  simp only at h
  split at h
  · simp at h
  · split at h
    · simp at h
    · rename_i ty hty
      split at h
      · simp at h
      · rename_i v hv
        simp only [Option.some.injEq, Except.ok.injEq] at h
        subst h
        refine ⟨?_, rfl, rfl⟩
        unfold CodePair.WellTyped
        rw [hty, parseValue_type hv]

/-- What `next` does to the state: one or two lines are read. -/
theorem next_state (t : TextIter) :
    t.next.2 = t.readCode.2 ∨
    t.next.2 =
      { t.readCode.2 with
        offset := t.readCode.2.offset + 1
        bytes := (readLine false t.readCode.2.enc t.readCode.2.bytes).2 } := by
  unfold TextIter.next
  simp only
  split
  · exact Or.inl rfl
  · split
    · exact Or.inl rfl
    · split
      · exact Or.inl rfl
      · exact Or.inr (readValue_state _ _)

theorem next_pair {t : TextIter} {p : CodePair} (h : t.next.1 = some (.ok p)) :
    p.WellTyped ∧ p.offset = t.readCode.2.offset := by
  unfold TextIter.next at h
  simp only at h
  split at h
  · simp at h
  · split at h
    · simp at h
    · split at h
      · simp at h
      · obtain ⟨h1, h2, _⟩ := readValue_pair h
        exact ⟨h1, h2⟩

/-- Work left: bytes and the unread first line. -/
def TextIter.work (t : TextIter) : Nat := t.bytes.length + (if t.firstLine.isSome then 1 else 0)

theorem next_firstLine (t : TextIter) : t.next.2.firstLine = none := by
  have : t.readCode.2.firstLine = none := by
    unfold TextIter.readCode
    split
    · rfl
    · rename_i h; simp only [h]
  rcases next_state t with h | h <;> rw [h] <;> simp [this]

theorem next_bytes_le (t : TextIter) : t.next.2.bytes.length ≤ t.bytes.length := by
  have : t.readCode.2.bytes.length ≤ t.bytes.length := by
    unfold TextIter.readCode
    split
    · exact Nat.le_refl _
    · exact readLine_length_le _ _ _
  rcases next_state t with h | h <;> rw [h]
  · exact this
  · exact Nat.le_trans (readLine_length_le _ _ _) this

theorem next_bytes_lt (t : TextIter) (hf : t.firstLine = none) (hb : t.bytes ≠ []) :
    t.next.2.bytes.length < t.bytes.length := by
  have : t.readCode.2.bytes.length < t.bytes.length := by
    unfold TextIter.readCode
    rw [hf]
    exact readLine_length _ _ hb
  rcases next_state t with h | h <;> rw [h]
  · exact this
  · exact Nat.lt_of_le_of_lt (readLine_length_le _ _ _) this

theorem next_empty (t : TextIter) (hf : t.firstLine = none) (hb : t.bytes = []) :
    t.next.1 = none := by
  have h : readLine true .win1252 [] = (.ok [], []) := by decide
  unfold TextIter.next TextIter.readCode
  simp [hf, hb, h, trim]

theorem next_work (t : TextIter) (h : t.done = false) : t.next.2.work < t.work := by
  unfold TextIter.work
  rw [next_firstLine]
  simp only [TextIter.done, Bool.and_eq_false_iff] at h
  cases hf : t.firstLine with
  | none =>
    have hb : t.bytes ≠ [] := by
      rcases h with h | h
      · intro hn; rw [hn] at h; simp at h
      · rw [hf] at h; simp at h
    have := next_bytes_lt t hf hb
    simpa using this
  | some l =>
    have := next_bytes_le t
    simp; omega

theorem items_fuel (t : TextIter) : ∀ n m, t.work ≤ n → t.work ≤ m →
    TextIter.items n t = TextIter.items m t := by
  intro n
  induction n generalizing t with
  | zero =>
    intro m h0 _
    have hd : t.done = true := by
      unfold TextIter.work at h0
      unfold TextIter.done
      cases hf : t.firstLine <;> simp [hf] at h0 ⊢
      exact h0
    cases m with
    | zero => rfl
    | succ m => simp [TextIter.items, hd]
  | succ n ih =>
    intro m hn hm
    cases hd : t.done with
    | true =>
      cases m with
      | zero => simp [TextIter.items, hd]
      | succ m => simp [TextIter.items, hd]
    | false =>
      have := next_work t hd
      cases m with
      | zero => omega
      | succ m =>
        simp only [TextIter.items, hd, Bool.false_eq_true, if_false]
        rw [ih t.next.2 m (by omega) (by omega)]

theorem items_length (n : Nat) (t : TextIter) : (TextIter.items n t).length ≤ t.work := by
  induction n generalizing t with
  | zero => simp [TextIter.items]
  | succ n ih =>
    rw [TextIter.items]
    cases hd : t.done with
    | true => simp
    | false =>
      have := next_work t hd
      have := ih t.next.2
      simp only [Bool.false_eq_true, if_false, List.length_cons]
      omega

theorem items_wellTyped (n : Nat) (t : TextIter) :
    ∀ p, some (.ok p) ∈ TextIter.items n t → p.WellTyped := by
  induction n generalizing t with
  | zero => intro p h; simp [TextIter.items] at h
  | succ n ih =>
    intro p h
    rw [TextIter.items] at h
    split at h
    · simp at h
    · rcases List.mem_cons.mp h with h | h
      · exact (next_pair h.symm).1
      · exact ih _ p h

/-! ### Line numbers -/

/-- State after `n` calls of `next`. -/
def TextIter.after : Nat → TextIter → TextIter
  | 0, t => t
  | n + 1, t => TextIter.after n t.next.2

theorem after_succ (n : Nat) (t : TextIter) :
    TextIter.after (n + 1) t = (TextIter.after n t).next.2 := by
  induction n generalizing t with
  | zero => rfl
  | succ n ih => rw [TextIter.after, ih]; rfl

/-- `off` lines of the file have been consumed when `bytes` are left. -/
def LinesRead (file bytes : List Byte) (off : Nat) : Prop :=
  bytes = [] ∨ ∃ pre, file = pre ++ bytes ∧ off = pre.count 0x0A#8

theorem linesRead_readLine {file bytes : List Byte} {off : Nat} (h : LinesRead file bytes off)
    (b : Bool) (enc : Enc) : LinesRead file (readLine b enc bytes).2 (off + 1) := by
  rcases readLine_rest b enc bytes with ⟨pre, h1, h2⟩ | ⟨_, h2⟩
  · rcases h with h | ⟨pre0, h3, h4⟩
    · rw [h] at h1; simp at h1
    · right
      refine ⟨pre0 ++ pre ++ [0x0A#8], ?_, ?_⟩
      · rw [h3]
        conv_lhs => rw [h1]
        simp
      · rw [List.count_append, List.count_append, List.count_eq_zero.mpr h2, ← h4]
        simp
  · exact Or.inl h2

theorem linesRead_next {file : List Byte} {t : TextIter} (h : LinesRead file t.bytes t.offset) :
    LinesRead file t.next.2.bytes t.next.2.offset := by
  have h1 : LinesRead file t.readCode.2.bytes t.readCode.2.offset := by
    unfold TextIter.readCode
    split
    · exact h
    · exact linesRead_readLine h _ _
  rcases next_state t with hs | hs <;> rw [hs]
  · exact h1
  · exact linesRead_readLine h1 _ _

theorem linesRead_after {file : List Byte} {t : TextIter} (h : LinesRead file t.bytes t.offset)
    (n : Nat) : LinesRead file (TextIter.after n t).bytes (TextIter.after n t).offset := by
  induction n generalizing t with
  | zero => exact h
  | succ n ih => exact ih (linesRead_next h)

/-! ### Binary reader -/

theorem readBytes_length_le (n : Nat) (bs : List Byte) : (readBytes n bs).2.length ≤ bs.length := by
  unfold readBytes
  split <;> simp

theorem readStringBin_length_le (bs : List Byte) : (readStringBin bs).2.length ≤ bs.length := by
  induction bs with
  | nil => simp [readStringBin]
  | cons b bs ih =>
    rw [readStringBin]
    split
    · simp
    · simp only [List.length_cons]; omega

theorem readValue_bin_le (t : BinIter) (code : Int) (ty : ExpectedType) :
    (t.readValue code ty).2.bytes.length ≤ t.bytes.length := by
  have hw : ∀ n f, (t.readWord n f).2.bytes.length ≤ t.bytes.length := by
    intro n f
    unfold BinIter.readWord
    exact readBytes_length_le _ _
  unfold BinIter.readValue
  cases ty with
  | boolean => simp only; split <;> exact hw _ _
  | integer => exact hw _ _
  | long => exact hw _ _
  | short => exact hw _ _
  | double => exact hw _ _
  | str =>
    simp only [BinIter.readStr]
    have h1 := readStringBin_length_le t.bytes
    split
    · exact h1
    · split
      · have h2 := readStringBin_length_le (readStringBin t.bytes).2
        split
        · exact Nat.le_trans h2 h1
        · exact Nat.le_trans h2 h1
      · exact h1
  | binary =>
    simp only [BinIter.readChunk]
    have h1 := readBytes_length_le 1 t.bytes
    split
    · exact h1
    · exact Nat.le_trans (readBytes_length_le _ _) h1

theorem readCode_bin_lt (t : BinIter) (h : t.bytes ≠ []) :
    t.readCode.2.bytes.length < t.bytes.length := by
  unfold BinIter.readCode
  split
  · rename_i h'; exact absurd h' h
  · rename_i b bs h'
    rw [h']
    simp only
    split
    · have := readBytes_length_le 1 bs
      split <;> simp only [List.length_cons] <;> omega
    · split
      · have := readBytes_length_le 2 bs
        split <;> simp only [List.length_cons] <;> omega
      · simp

theorem next_bin_lt (t : BinIter) (h : t.bytes ≠ []) :
    t.next.2.bytes.length < t.bytes.length := by
  have h1 := readCode_bin_lt t h
  unfold BinIter.next
  simp only
  split
  · exact h1
  · exact h1
  · split
    · exact h1
    · rename_i code hc _ ty hty
      have h2 := readValue_bin_le t.readCode.2 code ty
      split
      · exact Nat.lt_of_le_of_lt h2 h1
      · exact Nat.lt_of_le_of_lt h2 h1

theorem next_bin_empty (t : BinIter) (h : t.bytes = []) : t.next = (none, t) := by
  unfold BinIter.next BinIter.readCode
  rw [h]

theorem readValue_bin_type {t : BinIter} {code : Int} {ty : ExpectedType} {v : CodePairValue}
    {n : Nat} (h : (t.readValue code ty).1 = .ok (v, n)) : v.type = ty := by
  have hw : ∀ k (f : Nat → CodePairValue), (∀ n, (f n).type = ty) →
      (t.readWord k f).1 = .ok (v, n) → v.type = ty := by
    intro k f hf hr
    unfold BinIter.readWord at hr
    simp only at hr
    cases hb : (readBytes k t.bytes).1 with
    | error e => rw [hb] at hr; simp [Except.map] at hr
    | ok bs =>
      rw [hb] at hr
      simp only [Except.map, Except.ok.injEq, Prod.mk.injEq] at hr
      rw [← hr.1, hf]
  unfold BinIter.readValue at h
  cases ty with
  | boolean => simp only at h; split at h <;> exact hw _ _ (fun _ => rfl) h
  | integer => exact hw _ _ (fun _ => rfl) h
  | long => exact hw _ _ (fun _ => rfl) h
  | short => exact hw _ _ (fun _ => rfl) h
  | double => exact hw _ _ (fun _ => rfl) h
  | str =>
    simp only [BinIter.readStr] at h
    split at h
    · simp at h
    · split at h
      · split at h
        · simp at h
        · simp only [Except.ok.injEq, Prod.mk.injEq] at h
          rw [← h.1]; rfl
      · simp only [Except.ok.injEq, Prod.mk.injEq] at h
        rw [← h.1]; rfl
  | binary =>
    simp only [BinIter.readChunk] at h
    split at h
    · simp at h
    · simp only at h
      generalize (readBytes _ _).1 = r at h
      cases r with
      | error e => simp [Except.map] at h
      | ok bs =>
        simp only [Except.map, Except.ok.injEq, Prod.mk.injEq] at h
        rw [← h.1]; rfl

theorem next_bin_pair {t : BinIter} {p : CodePair} (h : t.next.1 = some (.ok p)) :
    p.WellTyped := by
  unfold BinIter.next at h
  simp only at h
  split at h
  · simp at h
  · simp at h
  · split at h
    · simp at h
    · rename_i ty hty
      split at h
      · simp at h
      · rename_i v n hv
        simp only [Option.some.injEq, Except.ok.injEq] at h
        subst h
        unfold CodePair.WellTyped
        rw [hty, readValue_bin_type hv]

theorem items_bin_fuel (t : BinIter) : ∀ n m, t.bytes.length ≤ n → t.bytes.length ≤ m →
    BinIter.items n t = BinIter.items m t := by
  intro n
  induction n generalizing t with
  | zero =>
    intro m h0 _
    have hd : t.bytes = [] := List.length_eq_zero_iff.mp (by omega)
    cases m with
    | zero => rfl
    | succ m => simp [BinIter.items, hd]
  | succ n ih =>
    intro m hn hm
    by_cases hd : t.bytes = []
    · cases m with
      | zero => simp [BinIter.items, hd]
      | succ m => simp [BinIter.items, hd]
    · have := next_bin_lt t hd
      cases m with
      | zero => omega
      | succ m =>
        have he : t.bytes.isEmpty = false := by rw [List.isEmpty_eq_false_iff]; exact hd
        simp only [BinIter.items, he, Bool.false_eq_true, if_false]
        rw [ih t.next.2 m (by omega) (by omega)]

theorem items_bin_length (n : Nat) (t : BinIter) :
    (BinIter.items n t).length ≤ t.bytes.length := by
  induction n generalizing t with
  | zero => simp [BinIter.items]
  | succ n ih =>
    rw [BinIter.items]
    by_cases hd : t.bytes = []
    · simp [hd]
    · have := next_bin_lt t hd
      have := ih t.next.2
      have he : t.bytes.isEmpty = false := by rw [List.isEmpty_eq_false_iff]; exact hd
      simp only [he, Bool.false_eq_true, if_false, List.length_cons]
      omega

theorem items_bin_wellTyped (n : Nat) (t : BinIter) :
    ∀ p, some (.ok p) ∈ BinIter.items n t → p.WellTyped := by
  induction n generalizing t with
  | zero => intro p h; simp [BinIter.items] at h
  | succ n ih =>
    intro p h
    rw [BinIter.items] at h
    split at h
    · simp at h
    · rcases List.mem_cons.mp h with h | h
      · exact next_bin_pair h.symm
      · exact ih _ p h

/-! ### Put-back -/

theorem next_skip (pre items : List Item) (h : ∀ it ∈ pre, isComment it = true) :
    Stream.next (pre ++ items) = Stream.next items := by
  induction pre with
  | nil => rfl
  | cons x xs ih =>
    rw [List.cons_append, Stream.next, if_pos (h x List.mem_cons_self)]
    exact ih (fun y hy => h y (List.mem_cons_of_mem _ hy))

/-- `next` on two streams that agree up to comments. -/
theorem next_filter (items : List Item) :
    (∃ it r, Stream.next items = (it, r) ∧
      items.filter (fun i => !isComment i) = it :: r.filter (fun i => !isComment i)) ∨
    (Stream.next items = (none, []) ∧ items.filter (fun i => !isComment i) = []) := by
  induction items with
  | nil => right; exact ⟨rfl, rfl⟩
  | cons x xs ih =>
    rw [Stream.next]
    cases hc : isComment x with
    | true => simpa [hc] using ih
    | false =>
      left
      exact ⟨x, xs, by simp, by simp [hc]⟩

end Dxf
