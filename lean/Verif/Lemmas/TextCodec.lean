import Verif.Lemmas.Encoding
import Verif.Spec.Pairs
import Verif.Model.BinCodec

/-! Lemmas about the text code-pair format. -/

namespace Dxf

/-! ### Doubles of every kind -/

/-- The double read from the text of `x`, for all doubles. -/
def textDouble (x : F64) : F64 := if x.isNan then F64.nan else if x.isInf then x else reread x

theorem formatF64_nan {x : F64} (h : x.isNan = true) : formatF64 x = str!"NaN" := by
  unfold formatF64 fmtFixed12
  simp only [h, if_true]
  decide

theorem isInf_cases {x : F64} (h : x.isInf = true) :
    x = ⟨0x7FF0000000000000#64⟩ ∨ x = ⟨0xFFF0000000000000#64⟩ := by
  unfold F64.isInf F64.expField F64.fracField at h
  simp only [Bool.and_eq_true, decide_eq_true_eq] at h
  obtain ⟨b⟩ := x
  have hlt := b.isLt
  simp only at h
  have : b.toNat = 0x7FF0000000000000 ∨ b.toNat = 0xFFF0000000000000 := by
    generalize b.toNat = n at *; omega
  rcases this with h | h
  · left; congr 1; exact BitVec.eq_of_toNat_eq h
  · right; congr 1; exact BitVec.eq_of_toNat_eq h

theorem parse_format_all (x : F64) : parseF64? (trim (formatF64 x)) = some (textDouble x) := by
  unfold textDouble
  cases hn : x.isNan with
  | true => rw [formatF64_nan hn, if_pos rfl]; decide +kernel
  | false =>
    cases hi : x.isInf with
    | true => rcases isInf_cases hi with rfl | rfl <;> decide +kernel
    | false =>
      have hf : x.isFinite = true := by
        unfold F64.isNan F64.isInf F64.isFinite at *
        by_cases h : x.expField = 2047 <;> by_cases h2 : x.fracField = 0 <;> simp_all
      have := parseF64_format hf 0
      unfold parseF64 at this
      cases hp : parseF64? (trim (formatF64 x)) with
      | none => rw [hp] at this; simp at this
      | some y => rw [hp] at this; simp only [Except.ok.injEq] at this; simp [this]

theorem readsAs_textDouble (x : F64) : ReadsAs x (textDouble x) := by
  intro off
  unfold parseF64
  rw [parse_format_all]

theorem format_chars_all (x : F64) : ∀ c ∈ formatF64 x, 45 ≤ c.toNat ∧ c.toNat < 128 := by
  cases hn : x.isNan with
  | true => rw [formatF64_nan hn]; decide
  | false =>
    cases hi : x.isInf with
    | true => rcases isInf_cases hi with rfl | rfl <;> decide +kernel
    | false =>
      have hf : x.isFinite = true := by
        unfold F64.isNan F64.isInf F64.isFinite at *
        by_cases h : x.expField = 2047 <;> by_cases h2 : x.fracField = 0 <;> simp_all
      intro c hc
      have := format_chars hf c hc
      omega

/-! ### Value lines -/

/-- The value read from the text of `v`. -/
def textVal : CodePairValue → CodePairValue
  | .double x => .double (textDouble x)
  | v => v

theorem sameValue_textVal (v : CodePairValue) : SameValue v (textVal v) := by
  cases v with
  | double x => exact Or.inr ⟨x, _, rfl, rfl, readsAs_textDouble x⟩
  | _ => exact Or.inl rfl

theorem textVal_type (v : CodePairValue) : (textVal v).type = v.type := by cases v <;> rfl

theorem pad_chars {w : Nat} {s : Str} (h : ∀ c ∈ s, 32 ≤ c.toNat ∧ c.toNat < 128) :
    ∀ c ∈ padLeft w ' ' s, 32 ≤ c.toNat ∧ c.toNat < 128 := by
  intro c hc
  simp only [padLeft, List.mem_append, List.mem_replicate] at hc
  rcases hc with ⟨_, rfl⟩ | hc
  · decide
  · exact h c hc

theorem fmtInt_range (i : Int) : ∀ c ∈ fmtInt i, 32 ≤ c.toNat ∧ c.toNat < 128 := by
  intro c hc
  have := fmtInt_chars i c hc
  omega

/-- Non-string values are written in printable ASCII. -/
theorem display_chars (v : CodePairValue) (hv : ∀ s, v ≠ .str s) :
    ∀ c ∈ v.display, 32 ≤ c.toNat ∧ c.toNat < 128 := by
  cases v with
  | boolean s => exact fmtInt_range _
  | integer i => exact pad_chars (fmtInt_range _)
  | long l => exact fmtInt_range _
  | short s => exact pad_chars (fmtInt_range _)
  | double d =>
    intro c hc
    have := format_chars_all d c hc
    omega
  | str s => exact absurd rfl (hv s)
  | binary b =>
    intro c hc
    have := fmtBinary_ascii b c hc
    omega

/-- The string `s` is carried by a value line written with `old` and read with `enc`. -/
def StrOk (old : Bool) (enc : Enc) (s : Str) : Prop :=
  decode enc (utf8Encode (valueLine old (.str s) ++ ['\r'])) =
    some (valueLine old (.str s) ++ ['\r']) ∧
  ∀ off, TextIter.parseValue enc .str (valueLine old (.str s)) off = .ok (.str s)

theorem valueLine_chars (old : Bool) (v : CodePairValue) (hv : ∀ s, v ≠ .str s) :
    ∀ c ∈ valueLine old v, 32 ≤ c.toNat ∧ c.toNat < 128 := by
  have : valueLine old v = v.display := by
    cases v with
    | str s => exact absurd rfl (hv s)
    | _ => rfl
  rw [this]
  exact display_chars v hv

def ValOk (old : Bool) (enc : Enc) : CodePairValue → Prop
  | .str s => StrOk old enc s
  | _ => True

theorem valueLine_ge (old : Bool) (v : CodePairValue) : ∀ c ∈ valueLine old v, 32 ≤ c.toNat := by
  cases v with
  | str s =>
    simp only [valueLine]
    split
    · exact escapeUnicode_ge _ (escapeControl_ge s)
    · exact escapeControl_ge s
  | _ =>
    intro c hc
    exact (valueLine_chars _ _ (by simp) c hc).1

theorem no_lf_of_ge {s : Str} (h : ∀ c ∈ s, 32 ≤ c.toNat) : ∀ c ∈ s, c ≠ '\n' := by
  intro c hc hn
  have := h c hc
  rw [hn] at this
  revert this; decide

theorem append_cr_ascii {s : Str} (h : ∀ c ∈ s, c.toNat < 128) : ∀ c ∈ s ++ ['\r'], c.toNat < 128 := by
  intro c hc
  rcases List.mem_append.mp hc with hc | hc
  · exact h c hc
  · simp only [List.mem_singleton] at hc; subst hc; decide

theorem decode_valueLine {old : Bool} {enc : Enc} {v : CodePairValue} (h : ValOk old enc v) :
    decode enc (utf8Encode (valueLine old v ++ ['\r'])) = some (valueLine old v ++ ['\r']) := by
  cases v with
  | str s => exact h.1
  | _ =>
    apply decode_ascii
    apply append_cr_ascii
    intro c hc
    exact (valueLine_chars _ _ (by simp) c hc).2

theorem parseI16_fmt (v : I16) (off : Nat) : parseI16 (fmtInt v.toInt) off = .ok v := by
  have := parseI16_pad 0 v off
  rwa [padLeft_zero] at this

/-- Reading the value line written for a value. -/
theorem parseValue_valueLine {old : Bool} {enc : Enc} {v : CodePairValue} (h : ValOk old enc v)
    (off : Nat) :
    TextIter.parseValue enc v.type (valueLine old v) off = .ok (textVal v) := by
  cases v with
  | boolean s =>
    simp only [CodePairValue.type, TextIter.parseValue, valueLine, CodePairValue.display,
      parseI16_fmt, textVal]; rfl
  | integer i =>
    simp only [CodePairValue.type, TextIter.parseValue, valueLine, CodePairValue.display,
      parseI32_pad, textVal]; rfl
  | long l =>
    simp only [CodePairValue.type, TextIter.parseValue, valueLine, CodePairValue.display,
      parseI64_fmt, textVal]; rfl
  | short s =>
    simp only [CodePairValue.type, TextIter.parseValue, valueLine, CodePairValue.display,
      parseI16_pad, textVal]; rfl
  | double d =>
    simp only [CodePairValue.type, TextIter.parseValue, valueLine, CodePairValue.display,
      readsAs_textDouble d off, textVal]; rfl
  | str s => exact h.2 off
  | binary b =>
    simp only [CodePairValue.type, TextIter.parseValue, valueLine, CodePairValue.display,
      parseHexString_binary, textVal]; rfl

/-- Strings carried in old-version files under the default encoding. -/
theorem strOk_old {s : Str} (h : TextStr true s) : StrOk true .win1252 s := by
  unfold TextStr at h
  simp only [if_true] at h
  constructor
  · apply decode_ascii
    apply append_cr_ascii
    exact escapeUnicode_ascii _
  · intro off
    simp only [TextIter.parseValue, valueLine, if_true]
    rw [unescapeUnicode_escapeUnicode _ (backslash_free h), unescape_escape]

/-- Escaping keeps the first character unless it is a control character or caret. -/
theorem escapeControl_head {s : Str} (h : s.head? ≠ some (Char.ofNat 0xFEFF)) :
    (escapeControl s ++ ['\r']).head? ≠ some (Char.ofNat 0xFEFF) := by
  intro hh
  cases s with
  | nil =>
    simp only [escapeControl, List.nil_append, List.head?_cons, Option.some.injEq] at hh
    have := congrArg Char.toNat hh
    rw [bom_toNat] at this
    revert this; decide
  | cons c cs =>
    by_cases hn : needsEscaping c = true
    · obtain ⟨l, hl, _⟩ := escapeControl_cons_esc hn cs
      rw [hl] at hh
      simp only [List.cons_append, List.head?_cons, Option.some.injEq] at hh
      have := congrArg Char.toNat hh
      rw [bom_toNat] at this
      revert this; decide
    · rw [escapeControl_cons_raw hn] at hh
      exact h hh

/-- Strings carried in new-version files read as UTF-8. -/
theorem strOk_new {s : Str} (h : TextStr false s) : StrOk false .utf8 s := by
  unfold TextStr at h
  simp only [Bool.false_eq_true, if_false] at h
  constructor
  · apply decode_utf8_encode
    exact escapeControl_head h
  · intro off
    simp only [TextIter.parseValue, valueLine, Bool.false_eq_true, if_false]
    rw [if_neg (by decide), unescape_escape]

/-- ASCII strings without backslash are also carried in new-version files read with the
default encoding (the part of a file before the version is known). -/
theorem strOk_mixed {s : Str} (h : ∀ c ∈ s, c ≠ '\\' ∧ c.toNat ≠ 0x1C ∧ c.toNat < 128) :
    StrOk false .win1252 s := by
  have h' : ∀ c ∈ s, c ≠ '\\' ∧ c.toNat ≠ 0x1C ∧ c.toNat < 0x10000 := fun c hc =>
    ⟨(h c hc).1, (h c hc).2.1, by have := (h c hc).2.2; omega⟩
  have hlow : ∀ c ∈ escapeControl s, c.toNat < 128 := by
    intro c hc
    rcases Nat.lt_or_ge c.toNat 96 with h1 | h1
    · omega
    · exact (h c (escapeControl_mem_high s c hc h1)).2.2
  have hplain : ∀ t : Str, (∀ c ∈ t, c.toNat < 128) → escapeUnicode t = t := by
    intro t ht
    induction t with
    | nil => rfl
    | cons c cs ih =>
      rw [escapeUnicode, if_neg (by have := ht c List.mem_cons_self; omega),
        ih (fun d hd => ht d (List.mem_cons_of_mem _ hd))]
  constructor
  · exact decode_ascii _ (append_cr_ascii hlow)
  · intro off
    simp only [TextIter.parseValue, valueLine, Bool.false_eq_true, if_false, if_true]
    have := unescapeUnicode_escapeUnicode _ (backslash_free h')
    rw [hplain _ hlow] at this
    rw [this, unescape_escape]

/-! ### One pair -/

theorem expected_range {c : Int} {t : ExpectedType} (h : ExpectedType.new c = some t) :
    0 ≤ c ∧ c ≤ 1071 := by
  apply Decidable.byContradiction
  intro hn
  have : ExpectedType.new c = none := by
    unfold ExpectedType.new
    repeat rw [if_neg (by omega)]
  rw [this] at h
  simp at h

/-- Text of the code line. -/
def codeText (c : Int) : Str := padLeft 3 ' ' (fmtInt c)

theorem codeText_trim (c : Int) : trim (codeText c) = fmtInt c := trim_padLeft 3 (fmtInt_no_ws c)

theorem codeText_chars (c : Int) : ∀ x ∈ codeText c, 32 ≤ x.toNat ∧ x.toNat < 128 :=
  pad_chars (fmtInt_range c)

theorem codeText_head (c : Int) : (utf8Encode (codeText c)).head? ≠ some 0xEF#8 := by
  intro h
  have hc := codeText_chars c
  rw [utf8Encode_ascii (fun x hx => (hc x hx).2), List.head?_map, Option.map_eq_some_iff] at h
  obtain ⟨x, hx, hb⟩ := h
  have hx := (hc x (List.mem_of_mem_head? hx)).2
  have := congrArg BitVec.toNat hb
  rw [byte_toNat (by omega)] at this
  have e : (0xEF#8).toNat = 0xEF := rfl
  omega

theorem ofInt_toInt_code {c : Int} (h0 : 0 ≤ c) (h1 : c ≤ 1071) : (BitVec.ofInt 32 c).toInt = c := by
  rw [BitVec.toInt_ofInt]
  simp only [Int.bmod]
  omega

theorem parseI32_code {c : Int} (h0 : 0 ≤ c) (h1 : c ≤ 1071) (off : Nat) :
    parseI32 (fmtInt c) off = .ok (BitVec.ofInt 32 c) := by
  have := parseI32_fmt (BitVec.ofInt 32 c) off
  rwa [ofInt_toInt_code h0 h1] at this

theorem asciiPair_split (old : Bool) (p : CodePair) (rest : List Byte) :
    writeAsciiPair old p ++ rest = utf8Encode (codeText p.code ++ str!"\r\n") ++
      (utf8Encode (valueLine old p.value ++ str!"\r\n") ++ rest) := by
  unfold writeAsciiPair asciiPairText codeText
  rw [← List.append_assoc, ← utf8Encode_append]
  simp [List.append_assoc]

theorem readValue_written {old : Bool} {enc : Enc} {p : CodePair} (hwt : p.WellTyped)
    (hv : ValOk old enc p.value) (rest : List Byte) (fl : Option Str) (off : Nat) :
    TextIter.readValue ⟨utf8Encode (valueLine old p.value ++ str!"\r\n") ++ rest, enc, fl, off⟩
        (BitVec.ofInt 32 p.code) =
      (some (.ok ⟨p.code, textVal p.value, off⟩), ⟨rest, enc, fl, off + 1⟩) := by
  obtain ⟨h0, h1⟩ := expected_range hwt
  unfold TextIter.readValue
  simp only
  rw [readLine_written false enc _ rest (no_lf_of_ge (valueLine_ge old p.value)) (by simp)
    (decode_valueLine hv)]
  simp only
  rw [ofInt_toInt_code h0 h1, hwt]
  simp only [parseValue_valueLine hv]

theorem next_written {old : Bool} {enc : Enc} {p : CodePair} (hwt : p.WellTyped)
    (hv : ValOk old enc p.value) (rest : List Byte) (off : Nat) :
    TextIter.next ⟨writeAsciiPair old p ++ rest, enc, none, off⟩ =
      (some (.ok ⟨p.code, textVal p.value, off + 1⟩), ⟨rest, enc, none, off + 2⟩) := by
  obtain ⟨h0, h1⟩ := expected_range hwt
  unfold TextIter.next TextIter.readCode
  simp only
  have hc := codeText_chars p.code
  rw [asciiPair_split, readLine_written true .win1252 (codeText p.code) _
    (no_lf_of_ge (fun c h => (hc c h).1)) (fun _ => codeText_head p.code)
    (decode_ascii _ (append_cr_ascii (fun c h => (hc c h).2)))]
  simp only
  rw [codeText_trim, if_neg (fmtInt_ne_nil _), parseI32_code h0 h1]
  simp only
  rw [readValue_written hwt hv]

/-! ### Streams -/

/-- What the reader yields for written pairs, `off` lines having been read before. -/
def expectedPairs : Nat → List CodePair → List CodePair
  | _, [] => []
  | off, p :: ps => ⟨p.code, textVal p.value, off + 1⟩ :: expectedPairs (off + 2) ps

theorem expectedPairs_length (off : Nat) (ps : List CodePair) :
    (expectedPairs off ps).length = ps.length := by
  induction ps generalizing off with
  | nil => rfl
  | cons p ps ih => simp [expectedPairs, ih]

theorem expectedPairs_get (off : Nat) (ps : List CodePair) (i : Nat) :
    (expectedPairs off ps)[i]? =
      ps[i]?.map fun p => ⟨p.code, textVal p.value, off + 2 * i + 1⟩ := by
  induction ps generalizing off i with
  | nil => simp [expectedPairs]
  | cons p ps ih =>
    cases i with
    | zero => simp [expectedPairs]
    | succ i =>
      simp only [expectedPairs, List.getElem?_cons_succ, ih]
      congr 2; funext p; congr 1; omega

theorem writeAscii_cons (old : Bool) (p : CodePair) (ps : List CodePair) :
    writeAscii old (p :: ps) = writeAsciiPair old p ++ writeAscii old ps := by
  simp [writeAscii, List.flatMap_cons]

theorem writeAsciiPair_ne_nil (old : Bool) (p : CodePair) (rest : List Byte) :
    writeAsciiPair old p ++ rest ≠ [] := by
  rw [asciiPair_split, utf8Encode_append, List.append_assoc]
  intro h
  have := (List.append_eq_nil_iff.mp h).2
  have := (List.append_eq_nil_iff.mp this).1
  revert this; decide

theorem items_written {old : Bool} {enc : Enc} (ps : List CodePair)
    (hwt : ∀ p ∈ ps, p.WellTyped) (hv : ∀ p ∈ ps, ValOk old enc p.value)
    (fuel : Nat) (hf : ps.length < fuel) (off : Nat) :
    TextIter.items fuel ⟨writeAscii old ps, enc, none, off⟩ =
      (expectedPairs off ps).map fun p => some (.ok p) := by
  induction ps generalizing fuel off with
  | nil =>
    cases fuel with
    | zero => simp at hf
    | succ f => simp [TextIter.items, TextIter.done, writeAscii, expectedPairs]
  | cons p ps ih =>
    cases fuel with
    | zero => simp at hf
    | succ f =>
      rw [TextIter.items, writeAscii_cons, next_written (hwt p List.mem_cons_self)
        (hv p List.mem_cons_self)]
      have hne : TextIter.done ⟨writeAsciiPair old p ++ writeAscii old ps, enc, none, off⟩ = false := by
        simp only [TextIter.done, Bool.and_eq_false_iff]
        left
        rw [List.isEmpty_eq_false_iff]
        exact writeAsciiPair_ne_nil old p _
      rw [hne]
      simp only [Bool.false_eq_true, if_false, expectedPairs, List.map_cons]
      rw [ih (fun q hq => hwt q (List.mem_cons_of_mem _ hq))
        (fun q hq => hv q (List.mem_cons_of_mem _ hq)) f (by simp at hf; omega)]

theorem length_le_writeAscii (old : Bool) (ps : List CodePair) :
    ps.length ≤ (writeAscii old ps).length := by
  induction ps with
  | nil => simp
  | cons p ps ih =>
    rw [writeAscii_cons, List.length_append, List.length_cons]
    have := List.length_pos_iff.mpr (writeAsciiPair_ne_nil old p [])
    rw [List.append_nil] at this
    omega

/-- Reading a written file: the stream when the first line has been read already. -/
theorem all_written {old : Bool} {enc : Enc} (p : CodePair) (ps : List CodePair)
    (hwt : ∀ q ∈ p :: ps, q.WellTyped) (hv : ∀ q ∈ p :: ps, ValOk old enc q.value) :
    TextIter.all ⟨utf8Encode (valueLine old p.value ++ str!"\r\n") ++ writeAscii old ps, enc,
        some (codeText p.code), 1⟩ =
      (expectedPairs 0 (p :: ps)).map fun q => some (.ok q) := by
  obtain ⟨h0, h1⟩ := expected_range (hwt p List.mem_cons_self)
  unfold TextIter.all
  rw [TextIter.items]
  have hd : TextIter.done ⟨utf8Encode (valueLine old p.value ++ str!"\r\n") ++ writeAscii old ps,
      enc, some (codeText p.code), 1⟩ = false := by simp [TextIter.done]
  rw [hd]
  simp only [Bool.false_eq_true, if_false]
  unfold TextIter.next TextIter.readCode
  simp only
  rw [codeText_trim, if_neg (fmtInt_ne_nil _), parseI32_code h0 h1]
  simp only
  rw [readValue_written (hwt p List.mem_cons_self) (hv p List.mem_cons_self)]
  simp only [expectedPairs, List.map_cons]
  rw [items_written ps (fun q hq => hwt q (List.mem_cons_of_mem _ hq))
        (fun q hq => hv q (List.mem_cons_of_mem _ hq))]
  rw [List.length_append, utf8Encode_append, List.length_append]
  have := length_le_writeAscii old ps
  have e : (utf8Encode (str!"\r\n")).length = 2 := by decide
  omega

theorem codeText_ne (c : Int) (t : Str) (h : ∃ x ∈ t, 57 < x.toNat) : codeText c ≠ t := by
  obtain ⟨x, hx, h57⟩ := h
  intro he
  rw [← he] at hx
  simp only [codeText, padLeft, List.mem_append, List.mem_replicate] at hx
  rcases hx with ⟨_, rfl⟩ | hx
  · revert h57; decide
  · have := fmtInt_chars c x hx; omega

/-- Reading a written file. -/
theorem fileItems_written (old : Bool) (encRead : Enc) (p : CodePair) (ps : List CodePair) :
    fileItems encRead (writeAscii old (p :: ps)) =
      .ok (some
        (TextIter.all ⟨utf8Encode (valueLine old p.value ++ str!"\r\n") ++ writeAscii old ps,
          encRead, some (codeText p.code), 1⟩,
         TextIter.all ⟨utf8Encode (valueLine old p.value ++ str!"\r\n") ++ writeAscii old ps,
          .utf8, some (codeText p.code), 1⟩)) := by
  unfold fileItems
  have hc := codeText_chars p.code
  rw [writeAscii_cons, asciiPair_split, readLine_written true encRead (codeText p.code) _
    (no_lf_of_ge (fun c h => (hc c h).1)) (fun _ => codeText_head p.code)
    (decode_ascii _ (append_cr_ascii (fun c h => (hc c h).2)))]
  simp only
  rw [if_neg (codeText_ne _ _ (by decide))]
  unfold newPairIter
  rw [if_neg (codeText_ne _ _ (by decide))]
  rfl

end Dxf
