import Verif.Lemmas.Hex
import Verif.Spec.Pairs

/-! # C03 - C06: handles, binary chunks, integers and doubles as text -/

namespace Dxf

/-! ## C03 Handle text is faithful -/

/-- Reading the text of a handle, with any surrounding white space and under any code and
offset, gives exactly that handle. -/
theorem C03_roundtrip (h : Handle) (before after : Str) (code : Int) (off : Nat)
    (hb : ∀ c ∈ before, isWhitespace c = true) (ha : ∀ c ∈ after, isWhitespace c = true) :
    (CodePair.mk code (.str (before ++ h.asString ++ after)) off).asHandle = .ok h :=
  asHandle_text code off h before after hb ha

/-- The text is non-empty upper-case hex. -/
theorem C03_alphabet (h : Handle) : h.asString ≠ [] ∧ ∀ c ∈ h.asString,
    ('0' ≤ c ∧ c ≤ '9') ∨ ('A' ≤ c ∧ c ≤ 'F') :=
  ⟨fmtHex_ne_nil _, fun c hc => fmtHex_upper _ c hc⟩

/-- The text has no leading zero, except that the null handle is written `0`. -/
theorem C03_no_leading_zero (h : Handle) :
    (h = 0 → h.asString = str!"0") ∧ (h ≠ 0 → h.asString.head? ≠ some '0') := by
  refine ⟨fun hh => by subst hh; decide, fun hh => fmtHex_head ?_⟩
  intro h0
  exact hh (BitVec.eq_of_toNat_eq (by simpa using h0))

/-- Different handles have different texts. -/
theorem C03_injective {h k : Handle} (e : h.asString = k.asString) : h = k := by
  have h1 := C03_roundtrip h [] [] 5 0 (by simp) (by simp)
  have h2 := C03_roundtrip k [] [] 5 0 (by simp) (by simp)
  rw [e] at h1
  exact Except.ok.inj (h1.symm.trans h2)

example : Handle.asString 0xABCDEF0123456789#64 = str!"ABCDEF0123456789" := by decide
example : (CodePair.mk 5 (.str (str!" \t2A ")) 7).asHandle = .ok 42#64 := by decide

/-- Beyond 16 digits the reader silently uses the leading eight bytes. -/
theorem C03_long_text_truncated :
    (CodePair.mk 5 (.str (str!"1000000000000000F")) 0).asHandle = .ok 0x0100000000000000#64 := by
  decide

/-! ## C04 Binary chunks survive the text format -/

/-- Every chunk is read back byte for byte. -/
theorem C04_roundtrip (bs : List Byte) (off : Nat) : parseHexString (fmtBinary bs) off = .ok bs :=
  parseHexString_binary off bs

/-- The same holds for a line in which any of the digits are lower case. -/
theorem C04_any_case (bs : List Byte) (off : Nat) (s : Str)
    (h : s.map asciiLower = (fmtBinary bs).map asciiLower) (hs : ∀ c ∈ s, (hexVal? c).isSome) :
    parseHexString s off = .ok bs := by
  have ha : ∀ c ∈ fmtBinary bs, (hexVal? c).isSome := by
    intro c hc
    simp only [fmtBinary, List.mem_flatMap] at hc
    obtain ⟨b, _, hc⟩ := hc
    simp only [fmtByteHex, padLeft, List.mem_append, List.mem_replicate] at hc
    rcases hc with ⟨_, rfl⟩ | hc
    · decide
    · exact fmtHex_isSome _ c hc
  have e : s.map hexVal? = (fmtBinary bs).map hexVal? := by
    have key : ∀ t : Str, (∀ c ∈ t, (hexVal? c).isSome) →
        t.map hexVal? = (t.map asciiLower).map hexVal? := by
      intro t ht
      rw [List.map_map]
      apply List.map_congr_left
      intro c hc
      exact (hexVal_toLower c (ht c hc)).symm
    rw [key s hs, h, ← key _ ha]
  have hl : s.length = (fmtBinary bs).length := by simpa using congrArg List.length h
  rw [← C04_roundtrip bs off]
  unfold parseHexString
  rw [strLen_ascii, strLen_ascii, hl]
  · exact parseHexLoop_congr off _ _ _ _ e
  · intro c hc; have := fmtBinary_ascii bs c hc; omega
  · intro c hc
    obtain ⟨v, hv⟩ := Option.isSome_iff_exists.mp (hs c hc)
    exact hexVal_ascii hv

/-- A line with a character that is not a hex digit is rejected, naming its offset. -/
theorem C04_rejects (s : Str) (off : Nat)
    (h : ∃ c ∈ s, ¬ (('0' ≤ c ∧ c ≤ '9') ∨ ('A' ≤ c ∧ c ≤ 'F') ∨ ('a' ≤ c ∧ c ≤ 'f'))) :
    parseHexString s off = .error (.parseError off) := by
  apply parseHexLoop_bad
  obtain ⟨c, hc, hn⟩ := h
  refine ⟨c, hc, ?_⟩
  have h1 : ¬ (48 ≤ c.toNat ∧ c.toNat ≤ 57) := fun hh => hn (Or.inl hh)
  have h2 : ¬ (65 ≤ c.toNat ∧ c.toNat ≤ 70) := fun hh => hn (Or.inr (Or.inl hh))
  have h3 : ¬ (97 ≤ c.toNat ∧ c.toNat ≤ 102) := fun hh => hn (Or.inr (Or.inr hh))
  unfold hexVal?
  simp only [if_neg h1, if_neg h2, if_neg h3]

example : fmtBinary [0x00#8, 0xAF#8, 0x10#8] = str!"00AF10" := by decide
example : parseHexString (str!"00aF10") 0 = .ok [0x00#8, 0xAF#8, 0x10#8] := by decide
example : parseHexString (str!"00 AF") 12 = .error (.parseError 12) := by decide

/-! ## C05 Integers survive the text format -/

/-- Every integer value of the four integer wire types is read back from the text written
for it. -/
theorem C05_roundtrip (enc : Enc) (off : Nat) :
    (∀ v : I16, TextIter.parseValue enc .boolean (CodePairValue.boolean v).display off =
      .ok (.boolean v)) ∧
    (∀ v : I16, TextIter.parseValue enc .short (CodePairValue.short v).display off =
      .ok (.short v)) ∧
    (∀ v : I32, TextIter.parseValue enc .integer (CodePairValue.integer v).display off =
      .ok (.integer v)) ∧
    (∀ v : I64, TextIter.parseValue enc .long (CodePairValue.long v).display off =
      .ok (.long v)) := by
  refine ⟨fun v => ?_, fun v => ?_, fun v => ?_, fun v => ?_⟩
  · have := parseI16_pad 0 v off
    simp only [padLeft, Nat.zero_sub, List.replicate_zero, List.nil_append] at this
    simp only [TextIter.parseValue, CodePairValue.display, this]; rfl
  · simp only [TextIter.parseValue, CodePairValue.display, parseI16_pad]; rfl
  · simp only [TextIter.parseValue, CodePairValue.display, parseI32_pad]; rfl
  · simp only [TextIter.parseValue, CodePairValue.display, parseI64_fmt]; rfl

example : (CodePairValue.short (BitVec.ofInt 16 (-32768))).display = str!"-32768" := by decide
example : (CodePairValue.integer 42#32).display = str!"       42" := by decide

/-! ## C06 Floating-point text is stable -/

/-- Every finite double is read back as a finite double of the same sign. -/
theorem C06_reads (x : F64) (h : x.isFinite = true) :
    ∃ y, ReadsAs x y ∧ y.isFinite = true ∧ y.neg = x.neg :=
  ⟨reread x, fun off => parseF64_format h off, reread_finite h, reread_neg h⟩

theorem ReadsAs.eq {x y : F64} (h : x.isFinite = true) (hy : ReadsAs x y) : y = reread x :=
  Except.ok.inj ((hy 0).symm.trans (parseF64_format h 0))

/-- Writing the value read gives the same text again. -/
theorem C06_stable (x y : F64) (h : x.isFinite = true) (hy : ReadsAs x y) :
    formatF64 y = formatF64 x := by
  rw [hy.eq h, format_reread h]

/-- The value read differs from the original by at most 10^-12.  `units` is the magnitude
in units of `2^-1074`, `oneUnits` the number of units in 1.0; both values have the same
sign (`C06_reads`). -/
theorem C06_error (x y : F64) (h : x.isFinite = true) (hy : ReadsAs x y) :
    (y.units - x.units) * 10 ^ 12 ≤ F64.oneUnits ∧
    (x.units - y.units) * 10 ^ 12 ≤ F64.oneUnits := by
  rw [hy.eq h]
  have := reread_error h
  rw [ndist, Nat.add_mul] at this
  exact ⟨Nat.le_trans (Nat.le_add_right _ _) this, Nat.le_trans (Nat.le_add_left _ _) this⟩

/-- Multiples of 2^-12 are read back bit for bit. -/
theorem C06_exact_multiples (x y : F64) (h : x.isFinite = true) (hy : ReadsAs x y)
    (hm : ∃ n : Nat, x.units * 2 ^ 12 = n * F64.oneUnits) : y = x := by
  rw [hy.eq h]
  obtain ⟨n, hn⟩ := hm
  exact reread_exact_of_dvd h hn

/-- Values of magnitude at least 2^13 are read back bit for bit. -/
theorem C06_exact_large (x y : F64) (h : x.isFinite = true) (hy : ReadsAs x y)
    (hl : 2 ^ 13 * F64.oneUnits ≤ x.units) : y = x := by
  rw [hy.eq h]
  exact reread_exact_of_ge h hl

/-- The text of a finite double: optional minus sign, digits, a point, 1 to 12 digits. -/
theorem C06_grammar (x : F64) (h : x.isFinite = true) :
    ∃ ip fp : Str, formatF64 x = (if x.neg then ['-'] else []) ++ ip ++ '.' :: fp ∧
      ip ≠ [] ∧ 1 ≤ fp.length ∧ fp.length ≤ 12 ∧
      ∀ c ∈ ip ++ fp, '0' ≤ c ∧ c ≤ '9' := by
  obtain ⟨v, _, h1, h2, _⟩ := fracText_val x
  refine ⟨fmtNat (dec12 x / 10 ^ 12), fracText x, formatF64_eq h, fmtNat_ne_nil _, h1, h2, ?_⟩
  intro c hc
  rcases List.mem_append.mp hc with hc | hc
  · exact fmtNat_chars _ c hc
  · exact fracText_chars x c hc

/-- Infinities are read back as they are. -/
theorem C06_infinities : ReadsAs ⟨0x7FF0000000000000#64⟩ ⟨0x7FF0000000000000#64⟩ ∧
    ReadsAs ⟨0xFFF0000000000000#64⟩ ⟨0xFFF0000000000000#64⟩ := by
  have e1 : parseF64? (trim (formatF64 ⟨0x7FF0000000000000#64⟩)) =
      some ⟨0x7FF0000000000000#64⟩ := by decide +kernel
  have e2 : parseF64? (trim (formatF64 ⟨0xFFF0000000000000#64⟩)) =
      some ⟨0xFFF0000000000000#64⟩ := by decide +kernel
  exact ⟨fun off => by simp only [parseF64, e1], fun off => by simp only [parseF64, e2]⟩

/-- 0.1 (0x3FB999999999999A) is written `0.1` and read back exactly. -/
example : formatF64 ⟨0x3FB999999999999A#64⟩ = str!"0.1" ∧
    parseF64? (str!"0.1") = some ⟨0x3FB999999999999A#64⟩ := by decide +kernel
/-- -2.5 meets the hypothesis of `C06_exact_multiples`. -/
example : F64.isFinite ⟨0xC004000000000000#64⟩ = true ∧
    F64.units ⟨0xC004000000000000#64⟩ * 2 ^ 12 = (5 * 2 ^ 11) * F64.oneUnits := by
  decide +kernel
/-- 8192.1 meets the hypothesis of `C06_exact_large`. -/
example : F64.isFinite ⟨0x40C0000CCCCCCCCD#64⟩ = true ∧
    2 ^ 13 * F64.oneUnits ≤ F64.units ⟨0x40C0000CCCCCCCCD#64⟩ := by
  decide +kernel
/-- Small values do change: 10^-13 is read back as 0. -/
theorem C06_small_lost : formatF64 ⟨0x3D3C25C268497682#64⟩ = str!"0.0" := by decide +kernel

end Dxf
