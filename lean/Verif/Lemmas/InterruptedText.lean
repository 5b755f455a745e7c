import Verif.Lemmas.Interrupted
import Verif.Lemmas.TextCodec

/-! Text files of which only the first bytes have been written. -/

namespace Dxf

/-! ### Plain words -/

theorem PlainWord.take {w : Str} (h : PlainWord w) (n : Nat) : PlainWord (w.take n) :=
  fun c hc => h c (List.mem_of_mem_take hc)

theorem PlainWord.escape {w : Str} (h : PlainWord w) : escapeControl w = w := by
  induction w with
  | nil => rfl
  | cons c w ih =>
    obtain ⟨h1, h2, h3, _⟩ := h c List.mem_cons_self
    rw [escapeControl_cons_raw, ih fun d hd => h d (List.mem_cons_of_mem _ hd)]
    unfold needsEscaping
    simp only [Bool.or_eq_true, decide_eq_true_eq, not_or]
    refine ⟨by omega, fun h94 => h3 ?_⟩
    exact char_eq_ofNat h94

theorem PlainWord.line {w : Str} (h : PlainWord w) (old : Bool) : valueLine old (.str w) = w := by
  simp only [valueLine]
  rw [h.escape]
  split
  · clear * - h
    induction w with
    | nil => rfl
    | cons c w ih =>
      obtain ⟨_, h2, _⟩ := h c List.mem_cons_self
      rw [escapeUnicode, if_neg (by omega), ih fun d hd => h d (List.mem_cons_of_mem _ hd)]
  · rfl

theorem PlainWord.ascii {w : Str} (h : PlainWord w) : ∀ c ∈ w, c.toNat < 128 :=
  fun c hc => by have := (h c hc).2.1; omega

/-- Plain words are read back with every encoding. -/
theorem PlainWord.ok {w : Str} (h : PlainWord w) (old : Bool) (enc : Enc) : StrOk old enc w := by
  have h1 : StrOk false enc w := by
    cases enc with
    | win1252 =>
      refine strOk_mixed fun c hc => ?_
      obtain ⟨h1, h2, _, h4⟩ := h c hc
      exact ⟨h4, by omega, by omega⟩
    | utf8 =>
      refine strOk_new ?_
      unfold TextStr
      simp only [Bool.false_eq_true, if_false]
      cases w with
      | nil => simp
      | cons c w =>
        intro hh
        simp only [List.head?_cons, Option.some.injEq] at hh
        have := (h c List.mem_cons_self).2.1
        rw [hh, bom_toNat] at this
        omega
  unfold StrOk at h1 ⊢
  rw [h.line] at h1 ⊢
  exact h1

/-! ### Lines -/

theorem lineBytes_noLf : ∀ (l : List Byte) (i : Nat), 0x0A#8 ∉ l →
    lineBytes false i false l = (l, []) := by
  intro l
  induction l with
  | nil => intro i _; rfl
  | cons b bs ih =>
    intro i hl
    rw [lineBytes, if_neg (by simp), if_neg (by simp), if_neg fun h => hl (by simp [h])]
    simp only
    rw [ih (i + 1) fun h => hl (List.mem_cons_of_mem _ h)]

/-- A line that is not ended. -/
theorem readLine_noLf (enc : Enc) {l : List Byte} (h : 0x0A#8 ∉ l) :
    readLine false enc l = (match decode enc l with
      | some s => .ok (stripCr s)
      | none => .error .malformedString, []) := by
  unfold readLine
  rw [lineBytes_noLf l 0 h]
  dsimp only
  split <;> rename_i h' <;> rw [h']

theorem readLine_rest_noLf (allowBom : Bool) (enc : Enc) {l : List Byte} (h : 0x0A#8 ∉ l) :
    (readLine allowBom enc l).2 = [] := by
  rcases readLine_rest allowBom enc l with ⟨pre, h1, _⟩ | h1
  · exact absurd (h1 ▸ by simp) h
  · exact h1.2

theorem readLine_line (enc : Enc) {s : Str} (hs : ∀ c ∈ s, c ≠ '\n') (rest : List Byte) :
    (readLine false enc (utf8Encode (s ++ str!"\r\n") ++ rest)).2 = rest := by
  have e : utf8Encode (s ++ str!"\r\n") ++ rest = utf8Encode (s ++ ['\r']) ++ 0x0A#8 :: rest := by
    rw [show s ++ ['\r', '\n'] = (s ++ ['\r']) ++ ['\n'] by simp, utf8Encode_append _ ['\n'],
      List.append_assoc]
    rfl
  unfold readLine
  rw [e, lineBytes_plain]
  · dsimp only
    split <;> rfl
  · apply utf8Encode_no_lf
    intro c hc
    rcases List.mem_append.mp hc with hc | hc
    · exact hs c hc
    · simp only [List.mem_singleton] at hc; subst hc; decide
  · simp
  · simp

/-- Part of a line with its end. -/
theorem line_prefix {s : Str} (hs : ∀ c ∈ s, c ≠ '\n') {l : List Byte}
    (h : l <+: utf8Encode (s ++ str!"\r\n")) (hl : l.length < (utf8Encode (s ++ str!"\r\n")).length) :
    0x0A#8 ∉ l := by
  have e : utf8Encode (s ++ str!"\r\n") = utf8Encode (s ++ ['\r']) ++ [0x0A#8] := by
    rw [show s ++ ['\r', '\n'] = (s ++ ['\r']) ++ ['\n'] by simp, utf8Encode_append _ ['\n']]
    rfl
  rw [e] at h hl
  have h2 : l <+: utf8Encode (s ++ ['\r']) := by
    obtain ⟨t, ht⟩ := h
    rw [List.length_append] at hl
    have hlen := congrArg List.length ht
    simp only [List.length_append, List.length_singleton] at hlen hl
    rcases List.append_eq_append_iff.mp ht with ⟨y, hy, _⟩ | ⟨y, hy, hz⟩
    · exact ⟨y, hy.symm⟩
    · have : y = [] := by
        have := congrArg List.length hy
        rw [List.length_append] at this
        exact List.length_eq_zero_iff.mp (by omega)
      exact ⟨[], by rw [hy, this]; simp⟩
  intro hm
  refine utf8Encode_no_lf (s := s ++ ['\r']) ?_ (h2.subset hm)
  intro c hc
  rcases List.mem_append.mp hc with hc | hc
  · exact hs c hc
  · simp only [List.mem_singleton] at hc; subst hc; decide

/-! ### Values -/

/-- What can be read as a value. -/
theorem readValue_item (t : TextIter) (code : I32) :
    (∃ e, (t.readValue code).1 = some (.error e)) ∨
    ∃ v off, (t.readValue code).1 = some (.ok ⟨code.toInt, v, off⟩) := by
  unfold TextIter.readValue
  dsimp only
  split
  · exact .inl ⟨_, rfl⟩
  · split
    · exact .inl ⟨_, rfl⟩
    · split
      · exact .inl ⟨_, rfl⟩
      · exact .inr ⟨_, _, rfl⟩

theorem word_typed {p : CodePair} {w : Str} (h0 : p.code = 0) (hv : p.value = .str w) :
    p.WellTyped := by
  unfold CodePair.WellTyped
  rw [h0, hv]
  rfl

/-- One pair of the kind that is considered. -/
def Wordlike (p : CodePair) : Prop :=
  (ExpectedType.new p.code).isSome = true ∧ (p.code = 0 → ∃ w, p.value = .str w ∧ PlainWord w)

theorem Wordlike.range {p : CodePair} (h : Wordlike p) : 0 ≤ p.code ∧ p.code ≤ 1071 := by
  obtain ⟨t, ht⟩ := Option.isSome_iff_exists.mp h.1
  exact expected_range ht

theorem value_shown {p : CodePair} (hp : Wordlike p) (old : Bool) (enc : Enc) (fl : Option Str)
    (rest : List Byte) (off : Nat) :
    ∃ it, TextIter.readValue ⟨utf8Encode (valueLine old p.value ++ str!"\r\n") ++ rest, enc, fl, off⟩
        (BitVec.ofInt 32 p.code) = (it, ⟨rest, enc, fl, off + 1⟩) ∧ Shown p it := by
  refine ⟨_, Prod.ext rfl ?_, ?_⟩
  · rw [readValue_state, readLine_line _ (no_lf_of_ge (valueLine_ge old p.value))]
  · by_cases h0 : p.code = 0
    · obtain ⟨w, hw, hplain⟩ := hp.2 h0
      rw [readValue_written (word_typed h0 hw) (by rw [hw]; exact hplain.ok old enc)]
      exact .inr ⟨_, rfl, rfl, fun _ => by rw [hw]; rfl⟩
    · rcases readValue_item ⟨utf8Encode (valueLine old p.value ++ str!"\r\n") ++ rest, enc, fl, off⟩
        (BitVec.ofInt 32 p.code) with h | ⟨v, o, h⟩
      · exact .inl h
      · refine .inr ⟨_, h, ?_, fun h => absurd h h0⟩
        exact ofInt_toInt_code hp.range.1 hp.range.2

/-- Reading a word of which only the first bytes are there. -/
theorem readValue_word {w : Str} (hw : PlainWord w) (enc : Enc) (fl : Option Str) {l : List Byte}
    (hl : l <+: utf8Encode (w ++ str!"\r\n")) (hlt : l.length < (utf8Encode (w ++ str!"\r\n")).length)
    (off : Nat) :
    (TextIter.readValue ⟨l, enc, fl, off⟩ 0#32).1 = some (.ok ⟨0, .str (w.take l.length), off⟩) := by
  have hasc : ∀ c ∈ w ++ str!"\r\n", c.toNat < 128 := by
    intro c hc
    rcases List.mem_append.mp hc with hc | hc
    · exact hw.ascii c hc
    · have : ∀ c ∈ str!"\r\n", c.toNat < 128 := by decide
      exact this c hc
  have hlf : ∀ c ∈ w, c ≠ '\n' := fun c hc hn => by
    have := (hw c hc).1
    rw [hn] at this
    revert this; decide
  have hno := line_prefix hlf hl hlt
  have hlen : (utf8Encode (w ++ str!"\r\n")).length = w.length + 2 := by
    rw [utf8Encode_ascii hasc]; simp
  have hle : l = utf8Encode ((w ++ str!"\r\n").take l.length) := by
    have h1 : l = (utf8Encode (w ++ str!"\r\n")).take l.length := List.prefix_iff_eq_take.mp hl
    rw [utf8Encode_ascii hasc] at h1
    rw [utf8Encode_ascii fun c hc => hasc c (List.mem_of_mem_take hc), List.map_take]
    exact h1
  have hdec : decode enc l = some ((w ++ str!"\r\n").take l.length) := by
    conv_lhs => rw [hle]
    exact decode_ascii _ fun c hc => hasc c (List.mem_of_mem_take hc)
  have hstrip : stripCr ((w ++ str!"\r\n").take l.length) = w.take l.length := by
    rcases Nat.lt_or_ge w.length l.length with h | h
    · have : l.length = w.length + 1 := by omega
      rw [this, List.take_append, List.take_of_length_le (by omega), Nat.add_sub_cancel_left]
      exact stripCr_cr w
    · rw [List.take_append_of_le_length h]
      unfold stripCr
      rw [if_neg]
      intro hg
      have hm : '\r' ∈ w.take l.length := List.mem_of_getLast? hg
      have := (hw _ (List.mem_of_mem_take hm)).1
      revert this; decide
  unfold TextIter.readValue
  dsimp only
  rw [readLine_noLf enc hno, hdec]
  dsimp only
  rw [hstrip]
  have hok := ((hw.take l.length).ok false enc).2 (off + 1)
  rw [(hw.take l.length).line] at hok
  have hty : ExpectedType.new (0#32 : I32).toInt = some .str := by decide
  rw [hty]
  dsimp only
  rw [hok]
  rfl

/-- The value of a pair of which only the first bytes are there. -/
theorem value_torn {p : CodePair} (hp : Wordlike p) (old : Bool) (enc : Enc) (fl : Option Str)
    {l : List Byte} (hl : l <+: utf8Encode (valueLine old p.value ++ str!"\r\n"))
    (hlt : l.length < (utf8Encode (valueLine old p.value ++ str!"\r\n")).length) (off : Nat) :
    ∃ it, TextIter.readValue ⟨l, enc, fl, off⟩ (BitVec.ofInt 32 p.code) =
        (it, ⟨[], enc, fl, off + 1⟩) ∧ ∀ few : Prop,
      Torn few ((utf8Encode (valueLine old p.value ++ str!"\r\n")).length ≤ l.length + 2) p it := by
  refine ⟨_, Prod.ext rfl ?_, fun few => ?_⟩
  · rw [readValue_state]
    dsimp only
    rw [readLine_rest_noLf false enc
      (line_prefix (no_lf_of_ge (valueLine_ge old p.value)) hl hlt)]
  · by_cases h0 : p.code = 0
    · obtain ⟨w, hw, hplain⟩ := hp.2 h0
      have hline : valueLine old p.value = w := by rw [hw]; exact hplain.line old
      rw [hline] at hl hlt ⊢
      rw [h0]
      have hread : (TextIter.readValue ⟨l, enc, fl, off⟩ (BitVec.ofInt 32 0)).1 = _ :=
        readValue_word hplain enc fl hl hlt off
      refine ⟨fun _ hn => ?_, fun q hq => ?_⟩
      · cases hread.symm.trans hn
      · cases hread.symm.trans hq
        refine ⟨fun _ => rfl, fun w' _ hv _ => ⟨h0, w, hw, ?_, ?_⟩⟩
        · cases hv
          exact List.take_prefix _ _
        · intro hww
          have hv' : w.take l.length = w' := CodePairValue.str.inj hv
          rw [hww] at hv'
          have hlen : (utf8Encode (w ++ str!"\r\n")).length = w.length + 2 := by
            rw [utf8Encode_append, List.length_append, utf8Encode_ascii hplain.ascii,
              List.length_map]
            rfl
          rw [hlen]
          have := congrArg List.length hv'
          rw [List.length_take] at this
          omega
    · rcases readValue_item ⟨l, enc, fl, off⟩ (BitVec.ofInt 32 p.code) with ⟨e, h⟩ | ⟨v, o, h⟩
      · exact ⟨fun h => absurd h h0, fun q hq => by cases h.symm.trans hq⟩
      · refine ⟨fun h => absurd h h0, fun q hq => ?_⟩
        cases h.symm.trans hq
        refine ⟨fun h => absurd h h0, fun w hc _ _ => ?_⟩
        rw [ofInt_toInt_code hp.range.1 hp.range.2] at hc
        exact absurd hc h0

/-! ### Pairs -/

theorem next_code {c : Int} (h0 : 0 ≤ c) (h1 : c ≤ 1071) (enc : Enc) (more : List Byte)
    (off : Nat) :
    TextIter.next ⟨utf8Encode (codeText c ++ str!"\r\n") ++ more, enc, none, off⟩ =
      TextIter.readValue ⟨more, enc, none, off + 1⟩ (BitVec.ofInt 32 c) := by
  unfold TextIter.next TextIter.readCode
  simp only
  have hc := codeText_chars c
  rw [readLine_written true .win1252 (codeText c) _
    (no_lf_of_ge (fun c h => (hc c h).1)) (fun _ => codeText_head c)
    (decode_ascii _ (append_cr_ascii (fun c h => (hc c h).2)))]
  simp only
  rw [codeText_trim, if_neg (fmtInt_ne_nil _), parseI32_code h0 h1]

theorem next_shown {p : CodePair} (hp : Wordlike p) (old : Bool) (enc : Enc) (rest : List Byte)
    (off : Nat) :
    ∃ it, TextIter.next ⟨writeAsciiPair old p ++ rest, enc, none, off⟩ =
      (it, ⟨rest, enc, none, off + 2⟩) ∧ Shown p it := by
  obtain ⟨it, h1, h2⟩ := value_shown hp old enc none rest (off + 1)
  exact ⟨it, by rw [asciiPair_split, next_code hp.range.1 hp.range.2, h1], h2⟩

theorem map_ok_inv {α β : Type} {f : α → β} {x : Except DxfErr α} {b : β}
    (h : x.map f = .ok b) : ∃ a, b = f a := by
  cases x with
  | error e => cases h
  | ok a => cases h; exact ⟨a, rfl⟩

/-- Nothing but an empty string is read from nothing. -/
theorem readValue_nil {enc : Enc} {fl : Option Str} {off : Nat} {code : I32} {q : CodePair}
    (h : (TextIter.readValue ⟨[], enc, fl, off⟩ code).1 = some (.ok q)) {w : Str}
    (hw : q.value = .str w) : w = [] := by
  have hr : readLine false enc [] = (.ok [], []) := by cases enc <;> rfl
  unfold TextIter.readValue at h
  dsimp only at h
  rw [hr] at h
  dsimp only at h
  split at h
  · cases h
  · rename_i ty _
    cases ty
    case str =>
      cases enc <;> (cases h; cases hw; rfl)
    all_goals
      split at h
      · cases h
      · rename_i v hv
        cases h
        dsimp only at hw
        subst hw
        unfold TextIter.parseValue at hv
        dsimp only at hv
        obtain ⟨a, ha⟩ := map_ok_inv hv
        cases ha

/-- A pair of which only the first bytes are there. -/
theorem next_torn {p : CodePair} (hp : Wordlike p) (old : Bool) (enc : Enc) {rest : List Byte}
    (hr : rest <+: writeAsciiPair old p) (hlt : rest.length < (writeAsciiPair old p).length)
    (hne : rest ≠ []) (off : Nat) :
    ∃ it off', TextIter.next ⟨rest, enc, none, off⟩ = (it, ⟨[], enc, none, off'⟩) ∧
      Torn (rest.length ≤ 2) ((writeAsciiPair old p).length ≤ rest.length + 2) p it := by
  have hsplit : writeAsciiPair old p = utf8Encode (codeText p.code ++ str!"\r\n") ++
      utf8Encode (valueLine old p.value ++ str!"\r\n") := by
    have := asciiPair_split old p []
    simpa using this
  rw [hsplit] at hr hlt ⊢
  rw [List.length_append] at hlt ⊢
  have hc := codeText_chars p.code
  rcases Nat.lt_or_ge rest.length (utf8Encode (codeText p.code ++ str!"\r\n")).length with h | h
  · have hpre : rest <+: utf8Encode (codeText p.code ++ str!"\r\n") :=
      List.prefix_of_prefix_length_le hr (List.prefix_append _ _) (Nat.le_of_lt h)
    by_cases h0 : p.code = 0
    · have hlit : utf8Encode (codeText p.code ++ str!"\r\n") = [32#8, 32#8, 48#8, 13#8, 10#8] := by
        rw [h0]; decide
      rw [hlit] at hpre h
      simp only [List.length_cons, List.length_nil] at h
      have hpos := List.length_pos_iff.mpr hne
      rw [List.prefix_iff_eq_take] at hpre
      generalize hm : rest.length = m at hpre h hpos
      have hcases : m = 1 ∨ m = 2 ∨ m = 3 ∨ m = 4 := by omega
      rcases hcases with rfl | rfl | rfl | rfl <;> subst hpre
      · exact ⟨none, off + 1, rfl, fun _ _ => by decide, fun q hq => by cases hq⟩
      · exact ⟨none, off + 1, rfl, fun _ _ => by decide, fun q hq => by cases hq⟩
      · refine ⟨some (.ok ⟨0, .str [], off + 1⟩), off + 2, by cases enc <;> rfl,
          (fun _ hn => by cases hn), fun q hq => ?_⟩
        cases hq
        exact ⟨fun _ => rfl, fun w _ hw hne => by cases hw; exact absurd rfl hne⟩
      · refine ⟨some (.ok ⟨0, .str [], off + 1⟩), off + 2, by cases enc <;> rfl,
          (fun _ hn => by cases hn), fun q hq => ?_⟩
        cases hq
        exact ⟨fun _ => rfl, fun w _ hw hne => by cases hw; exact absurd rfl hne⟩
    · have hno := readLine_rest_noLf true .win1252
        (line_prefix (no_lf_of_ge fun c h => (hc c h).1) hpre h)
      have torn : ∀ it : Item, (∀ q, it = some (.ok q) → ∀ w, q.value = .str w → w = []) →
          ∀ few nearly, Torn few nearly p it := fun it hit few nearly =>
        ⟨fun h => absurd h h0, fun q hq => ⟨fun h => absurd h h0, fun w _ hw hne =>
          absurd (hit q hq w hw) hne⟩⟩
      unfold TextIter.next TextIter.readCode
      dsimp only
      rw [hno]
      split
      · exact ⟨_, _, rfl, torn _ (fun q hq => by cases hq) _ _⟩
      · split
        · exact ⟨_, _, rfl, torn _ (fun q hq => by cases hq) _ _⟩
        · split
          · exact ⟨_, _, rfl, torn _ (fun q hq => by cases hq) _ _⟩
          · refine ⟨_, off + 2, Prod.ext rfl ?_, torn _ (fun q hq w hw => readValue_nil hq hw) _ _⟩
            rw [readValue_state]
            dsimp only
            rw [show (readLine false enc []).2 = [] by cases enc <;> rfl]
  · obtain ⟨l, rfl⟩ : ∃ l, rest = utf8Encode (codeText p.code ++ str!"\r\n") ++ l := by
      have := List.prefix_of_prefix_length_le (List.prefix_append _ _) hr h
      exact ⟨_, this.choose_spec.symm⟩
    rw [List.prefix_append_right_inj] at hr
    rw [List.length_append] at hlt
    obtain ⟨it, h1, h2⟩ := value_torn hp old enc none hr (by omega) (off + 1)
    refine ⟨it, _, by rw [next_code hp.range.1 hp.range.2, h1], ?_⟩
    have := h2 ((utf8Encode (codeText p.code ++ str!"\r\n") ++ l).length ≤ 2)
    refine ⟨this.1, fun q hq => ⟨(this.2 q hq).1, fun w a b c => ?_⟩⟩
    obtain ⟨h0, w0, k1, k2, k3⟩ := (this.2 q hq).2 w a b c
    refine ⟨h0, w0, k1, k2, fun hw => ?_⟩
    have := k3 hw
    rw [List.length_append]
    omega

/-! ### Files -/

/-- What is expected of the items that are read: one for each whole pair and one for the piece of a
pair, if there is one. -/
def hopes (ps : List CodePair) (p : CodePair) (few nearly : Prop) (piece : Bool) :
    List (Item → Prop) :=
  ps.map Shown ++ if piece then [Torn few nearly p] else []

def Meets (P : Item → Prop) (it : Item) : Prop := P it

theorem items_hopes {old : Bool} {enc : Enc} {p : CodePair} (hp : Wordlike p) {rest : List Byte}
    (hr : rest <+: writeAsciiPair old p) (hlt : rest.length < (writeAsciiPair old p).length) :
    ∀ (ps : List CodePair), (∀ q ∈ ps, Wordlike q) → ∀ (fuel off : Nat), ps.length + 1 < fuel →
      List.Forall₂ Meets (hopes ps p (rest.length ≤ 2)
        ((writeAsciiPair old p).length ≤ rest.length + 2) (!rest.isEmpty))
        (TextIter.items fuel ⟨writeAscii old ps ++ rest, enc, none, off⟩) := by
  intro ps
  induction ps with
  | nil =>
    intro _ fuel off hf
    obtain ⟨n, rfl⟩ : ∃ n, fuel = n + 2 := ⟨fuel - 2, by simp at hf; omega⟩
    rw [TextIter.items]
    cases rest with
    | nil => exact .nil
    | cons b bs =>
      obtain ⟨it, o, h1, h2⟩ := next_torn hp old enc hr hlt (by simp) off
      have hd : TextIter.done ⟨writeAscii old [] ++ b :: bs, enc, none, off⟩ = false := rfl
      rw [hd]
      simp only [Bool.false_eq_true, if_false]
      rw [show writeAscii old [] ++ b :: bs = b :: bs from rfl, h1]
      refine .cons h2 ?_
      rw [TextIter.items]
      exact .nil
  | cons q ps ih =>
    intro hq fuel off hf
    obtain ⟨n, rfl⟩ : ∃ n, fuel = n + 1 := ⟨fuel - 1, by simp at hf; omega⟩
    rw [TextIter.items, writeAscii_cons, List.append_assoc]
    obtain ⟨it, h1, h2⟩ := next_shown (hq q List.mem_cons_self) old enc (writeAscii old ps ++ rest)
      off
    have hd : TextIter.done ⟨writeAsciiPair old q ++ (writeAscii old ps ++ rest), enc, none, off⟩ =
        false := by
      simp only [TextIter.done, Bool.and_eq_false_iff]
      left
      rw [List.isEmpty_eq_false_iff]
      exact writeAsciiPair_ne_nil old q _
    rw [hd, h1]
    simp only [Bool.false_eq_true, if_false]
    exact .cons h2 (ih (fun r hr => hq r (List.mem_cons_of_mem _ hr)) n (off + 2)
      (by simp at hf; omega))

/-- A file whose first line is that of a code. -/
theorem fileItems_code (enc : Enc) (c : Int) (more : List Byte) :
    fileItems enc (utf8Encode (codeText c ++ str!"\r\n") ++ more) =
      .ok (some (TextIter.all ⟨more, enc, some (codeText c), 1⟩,
        TextIter.all ⟨more, .utf8, some (codeText c), 1⟩)) := by
  unfold fileItems
  have hc := codeText_chars c
  rw [readLine_written true enc (codeText c) _
    (no_lf_of_ge (fun c h => (hc c h).1)) (fun _ => codeText_head c)
    (decode_ascii _ (append_cr_ascii (fun c h => (hc c h).2)))]
  simp only
  rw [if_neg (codeText_ne _ _ ⟨'A', by decide, by decide⟩)]
  unfold newPairIter
  rw [if_neg (codeText_ne _ _ ⟨'A', by decide, by decide⟩)]
  rfl

theorem all_code {c : Int} (h0 : 0 ≤ c) (h1 : c ≤ 1071) (enc : Enc) (more : List Byte) :
    TextIter.all ⟨more, enc, some (codeText c), 1⟩ =
      (TextIter.readValue ⟨more, enc, none, 1⟩ (BitVec.ofInt 32 c)).1 ::
        TextIter.items more.length
          (TextIter.readValue ⟨more, enc, none, 1⟩ (BitVec.ofInt 32 c)).2 := by
  unfold TextIter.all
  rw [TextIter.items]
  have hd : TextIter.done ⟨more, enc, some (codeText c), 1⟩ = false := by simp [TextIter.done]
  have hn : TextIter.next ⟨more, enc, some (codeText c), 1⟩ =
      TextIter.readValue ⟨more, enc, none, 1⟩ (BitVec.ofInt 32 c) := by
    unfold TextIter.next TextIter.readCode
    simp only
    rw [codeText_trim, if_neg (fmtInt_ne_nil _), parseI32_code h0 h1]
  rw [hd, hn]
  rfl

/-- The items of a text file that was not written to its end. -/
theorem all_hopes {old : Bool} {enc : Enc} {p : CodePair} (hp : Wordlike p) {rest : List Byte}
    (hr : rest <+: writeAsciiPair old p) (hlt : rest.length < (writeAsciiPair old p).length)
    {q : CodePair} {ps : List CodePair} (hq : ∀ r ∈ q :: ps, Wordlike r) :
    List.Forall₂ Meets (hopes (q :: ps) p (rest.length ≤ 2)
        ((writeAsciiPair old p).length ≤ rest.length + 2) (!rest.isEmpty))
      (TextIter.all ⟨utf8Encode (valueLine old q.value ++ str!"\r\n") ++ (writeAscii old ps ++ rest),
        enc, some (codeText q.code), 1⟩) := by
  have hq0 := hq q List.mem_cons_self
  obtain ⟨it, h1, h2⟩ := value_shown hq0 old enc none (writeAscii old ps ++ rest) 1
  rw [all_code hq0.range.1 hq0.range.2, h1]
  refine .cons h2 (items_hopes hp hr hlt ps (fun r hr => hq r (List.mem_cons_of_mem _ hr)) _ _ ?_)
  rw [List.length_append, utf8Encode_append, List.length_append, List.length_append]
  have := length_le_writeAscii old ps
  have e : (utf8Encode (str!"\r\n")).length = 2 := by decide
  omega

theorem forall₂_mix {α β : Type} {R : α → β → Prop} {l : List α} {a b : List β}
    (ha : List.Forall₂ R l a) (hb : List.Forall₂ R l b) (n : Nat) :
    List.Forall₂ R l (a.take n ++ b.drop n) := by
  induction n generalizing l a b with
  | zero => simpa using hb
  | succ n ih =>
    cases ha with
    | nil => cases hb; exact .nil
    | cons h1 h2 =>
      cases hb with
      | cons h3 h4 => exact .cons h1 (ih h2 h4)

theorem Drawing.switched_mix {Img : Type} {codec : ImageCodec Img} {h0 : Header} {order : List Str}
    {α : Type} {R : α → Item → Prop} {l : List α} {main alt : Stream}
    (h1 : List.Forall₂ R l main) (h2 : List.Forall₂ R l alt) :
    List.Forall₂ R l (switched codec h0 order main alt) := by
  unfold switched
  split
  · exact forall₂_mix h1 h2 _
  · exact h1

/-- The part of a list of pieces before a place. -/
theorem take_pieces {α β : Type} (f : α → List β) : ∀ (l : List α) (n : Nat),
    n < (l.flatMap f).length → ∃ k x rest, l[k]? = some x ∧
      (l.flatMap f).take n = (l.take k).flatMap f ++ rest ∧ rest <+: f x ∧
      rest.length < (f x).length := by
  intro l
  induction l with
  | nil => intro n h; simp at h
  | cons x l ih =>
    intro n h
    rw [List.flatMap_cons, List.length_append] at h
    rcases Nat.lt_or_ge n (f x).length with h1 | h1
    · refine ⟨0, x, (f x).take n, rfl, ?_, List.take_prefix _ _, by rw [List.length_take]; omega⟩
      rw [List.flatMap_cons, List.take_append_of_le_length (Nat.le_of_lt h1)]
      rfl
    · obtain ⟨k, y, rest, h2, h3, h4, h5⟩ := ih (n - (f x).length) (by omega)
      refine ⟨k + 1, y, rest, h2, ?_, h4, h5⟩
      rw [List.flatMap_cons, List.take_append, List.take_of_length_le h1, h3, List.take_succ_cons,
        List.flatMap_cons, List.append_assoc]

/-- A file with a piece of the first pair only. -/
theorem fileItems_piece {old : Bool} (enc : Enc) {p : CodePair} (hp : Wordlike p)
    (h0 : p.code = 0) {rest : List Byte} (hr : rest <+: writeAsciiPair old p)
    (hlt : rest.length < (writeAsciiPair old p).length) (h3 : 3 ≤ rest.length) (few : Prop) :
    ∃ it1 it2, fileItems enc rest = .ok (some ([it1], [it2])) ∧
      Torn few ((writeAsciiPair old p).length ≤ rest.length + 2) p it1 ∧
      Torn few ((writeAsciiPair old p).length ≤ rest.length + 2) p it2 := by
  have hsplit : writeAsciiPair old p = utf8Encode (codeText p.code ++ str!"\r\n") ++
      utf8Encode (valueLine old p.value ++ str!"\r\n") := by
    have := asciiPair_split old p []
    simpa using this
  have hlit : utf8Encode (codeText p.code ++ str!"\r\n") = [32#8, 32#8, 48#8, 13#8, 10#8] := by
    rw [h0]; decide
  rw [hsplit] at hr hlt ⊢
  rw [List.length_append] at hlt ⊢
  rcases Nat.lt_or_ge rest.length (utf8Encode (codeText p.code ++ str!"\r\n")).length with h | h
  · have hpre : rest <+: utf8Encode (codeText p.code ++ str!"\r\n") :=
      List.prefix_of_prefix_length_le hr (List.prefix_append _ _) (Nat.le_of_lt h)
    rw [hlit] at hpre h
    simp only [List.length_cons, List.length_nil] at h
    rw [List.prefix_iff_eq_take] at hpre
    have torn : ∀ nearly, Torn few nearly p (some (.ok ⟨0, .str [], 1⟩)) := fun nearly =>
      ⟨(fun _ hn => by cases hn), fun q hq => by
        cases hq
        exact ⟨fun _ => rfl, fun w _ hw hne => by cases hw; exact absurd rfl hne⟩⟩
    refine ⟨_, _, ?_, torn _, torn _⟩
    generalize hm : rest.length = m at hpre h h3
    have hcases : m = 3 ∨ m = 4 := by omega
    rcases hcases with rfl | rfl <;> subst hpre <;> cases enc <;> rfl
  · obtain ⟨l, rfl⟩ : ∃ l, rest = utf8Encode (codeText p.code ++ str!"\r\n") ++ l := by
      have := List.prefix_of_prefix_length_le (List.prefix_append _ _) hr h
      exact ⟨_, this.choose_spec.symm⟩
    rw [List.prefix_append_right_inj] at hr
    rw [List.length_append] at hlt
    obtain ⟨it1, h1, t1⟩ := value_torn hp old enc none hr (by omega) 1
    obtain ⟨it2, h2, t2⟩ := value_torn hp old .utf8 none hr (by omega) 1
    refine ⟨it1, it2, ?_, ?_, ?_⟩
    · rw [fileItems_code, all_code hp.range.1 hp.range.2, all_code hp.range.1 hp.range.2, h1, h2]
      have hd : ∀ n e, TextIter.items n ⟨[], e, none, 1 + 1⟩ = [] := by
        intro n e; cases n <;> rfl
      rw [hd, hd]
    all_goals
      rw [List.length_append, Nat.add_assoc]
      simp only [Nat.add_le_add_iff_left]
      first | exact t1 _ | exact t2 _

end Dxf
