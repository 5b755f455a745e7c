import Verif.Lemmas.Escape

/-! # C01, C02: strings as written to and read from files -/

namespace Dxf

/-! ## C01 Control characters in strings survive a save -/

/-- Un-escaping the escaped text gives back every string. -/
theorem C01_roundtrip (s : Str) : unescapeString (escapeControl s) = s := unescape_escape s

/-- The escaped text has no character below U+0020, in particular no line break. -/
theorem C01_no_control (s : Str) : ∀ c ∈ escapeControl s, 0x20 ≤ c.toNat := escapeControl_ge s

/-- The escaper never reaches its `panic!` arm. -/
theorem C01_no_panic (s : Str) : ∃ t, escapeControl? s = some t ∧ t = escapeControl s :=
  ⟨_, escapeControl?_eq s, rfl⟩

/-- Distinct strings have distinct texts. -/
theorem C01_injective {s t : Str} (h : escapeControl s = escapeControl t) : s = t := by
  rw [← C01_roundtrip s, h, C01_roundtrip]

/-- Text without control characters and carets is written as it is. -/
theorem C01_plain (s : Str) (h : ∀ c ∈ s, 0x20 ≤ c.toNat ∧ c ≠ '^') : escapeControl s = s := by
  induction s with
  | nil => rfl
  | cons c cs ih =>
    have hc := h c List.mem_cons_self
    have hn : ¬ needsEscaping c = true := by
      unfold needsEscaping
      have : c.toNat ≠ 0x5E := fun hh => hc.2 (by rw [char_eq_ofNat hh])
      simp
      omega
    rw [escapeControl_cons_raw hn, ih (fun d hd => h d (List.mem_cons_of_mem _ hd))]

example : escapeControl (str!"a\nb^c\tΩ") = str!"a^Jb^ c^IΩ" := by decide
example : unescapeString (str!"a^Jb^ c^IΩ") = str!"a\nb^c\tΩ" := by decide

/-- The reader is not injective on foreign text: a trailing lone caret disappears. -/
theorem C01_reader_drops_trailing_caret : unescapeString (str!"ab^") = str!"ab" := by decide

/-! ## C02 Old-version text is pure ASCII and its `\U+` escapes decode back -/

/-- What the writer puts on a string's value line for versions up to R2004 (the composition
of src/code_pair_writer.rs:53-59). -/
def oldText (s : Str) : Str := escapeUnicode (escapeControl s)

/-- What the reader makes of a string's value line under the default encoding (the
composition of src/code_pair_iter.rs:139-145). -/
def oldRead (s : Str) : Str := unescapeString (unescapeUnicode s)

/-- Every string is written with printable ASCII characters (and DEL) only. -/
theorem C02_ascii (s : Str) : ∀ c ∈ oldText s, 0x20 ≤ c.toNat ∧ c.toNat < 0x80 := fun c hc =>
  ⟨escapeUnicode_ge _ (escapeControl_ge s) c hc, escapeUnicode_ascii _ c hc⟩

/-- The claim for all strings, which the code does not meet. -/
def C02_claim : Prop := ∀ s : Str, oldRead (oldText s) = s

/-- Strings without backslash, without U+001C (written `^\`) and within the Basic
Multilingual Plane are read back exactly.  Missing from the full claim: strings with a
backslash, with U+001C or with astral characters; the theorems below show that the claim
fails there. -/
theorem C02_roundtrip_partial (s : Str)
    (h : ∀ c ∈ s, c ≠ '\\' ∧ c.toNat ≠ 0x1C ∧ c.toNat < 0x10000) :
    oldRead (oldText s) = s := by
  unfold oldRead oldText
  rw [unescapeUnicode_escapeUnicode _ (backslash_free h), C01_roundtrip]

example : ∀ c ∈ str!"Ω^\n×", c ≠ '\\' ∧ c.toNat ≠ 0x1C ∧ c.toNat < 0x10000 := by decide
example : oldText (str!"Ω^\n") = str!"\\U+03A9^ ^J" := by decide +kernel

/-- A backslash within the last six characters swallows the rest of the string (here the
`\P` paragraph mark of multi-line text). -/
theorem C02_backslash_truncates : oldRead (oldText (str!"abc\\Pdef")) = str!"abc" := by
  decide +kernel

/-- The control character U+001C swallows the rest of the string as well. -/
theorem C02_fs_truncates : oldRead (oldText (Char.ofNat 0x1C :: str!"ab")) ≠
    Char.ofNat 0x1C :: str!"ab" := by
  decide +kernel

/-- Astral characters come back as another character and a stray digit. -/
theorem C02_astral_damaged : oldRead (oldText (str!"😀")) ≠ str!"😀" := by decide +kernel

/-- Hence the full claim is false of the code. -/
theorem C02_claim_false : ¬ C02_claim := fun h =>
  absurd (h (str!"😀")) C02_astral_damaged

/-- Every character beyond the Basic Multilingual Plane is damaged, wherever it stands at
the start of a string. -/
theorem C02_every_astral_damaged (c : Char) (hc : 0x10000 ≤ c.toNat) (s : Str) :
    unescapeUnicode (escapeUnicode (c :: s)) ≠ c :: s := by
  have hlen : 5 ≤ (fmtHex c.toNat).length := by
    apply Nat.le_of_not_lt
    intro hcon
    have hb := valOf_lt (b := 16) 0 (digits 16 c.toNat) (digits_lt (by omega) _)
    rw [valOf_digits (by omega)] at hb
    have hl : (digits 16 c.toNat).length ≤ 4 := by
      have : (fmtHex c.toNat).length = (digits 16 c.toNat).length := by simp [fmtHex]
      omega
    have : 16 ^ (digits 16 c.toNat).length ≤ 16 ^ 4 := Nat.pow_le_pow_right (by omega) hl
    omega
  have hpad : padLeft 4 '0' (fmtHex c.toNat) = fmtHex c.toNat := by
    simp [padLeft, show 4 - (fmtHex c.toNat).length = 0 by omega]
  have hchars := fmtHex_ascii c.toNat
  unfold escapeUnicode
  rw [if_pos (by omega), hpad]
  generalize fmtHex c.toNat = t at *
  match t, hlen with
  | a1 :: a2 :: a3 :: a4 :: a5 :: r, _ =>
    have e : ['\\', 'U', '+'] ++ (a1 :: a2 :: a3 :: a4 :: a5 :: r) ++ escapeUnicode s =
        '\\' :: ([ 'U', '+', a1, a2, a3, a4] ++ (a5 :: r ++ escapeUnicode s)) := by simp
    unfold unescapeUnicode
    rw [e]
    have hb := unescapeUnicode_block ['U', '+', a1, a2, a3, a4] rfl
      (a5 :: r ++ escapeUnicode s) '\\'
    simp only [List.take_zero] at hb
    rw [unescapeUnicodeLoop, if_pos rfl, hb]
    have hne : ∃ x, decodeSeq ['\\', 'U', '+', a1, a2, a3, a4] = [x] ∧ x.toNat < 0x10000 := by
      simp only [decodeSeq]
      split
      · rename_i n hn
        refine ⟨_, rfl, ?_⟩
        unfold charFromU32
        split
        · rename_i hv
          rw [toNat_ofNat_of_valid hv]
          unfold parseU32Hex at hn
          split at hn
          · simp at hn
          · have h1 : a1 ≠ '-' ∧ a1 ≠ '+' := by
              have := hchars a1 (by simp)
              constructor <;> intro h <;> subst h <;> revert this <;> decide
            simp only [stripSign, h1.1, h1.2, if_false] at hn
            have hb : ∀ (l : Str) (acc m : Nat), digitsVal? 16 hexVal? acc l = some m →
                m < (acc + 1) * 16 ^ l.length := by
              intro l
              induction l with
              | nil => intro acc m hm; simp [digitsVal?] at hm; subst hm; simp
              | cons x xs ih =>
                intro acc m hm
                simp only [digitsVal?] at hm
                cases hx : hexVal? x with
                | none => rw [hx] at hm; simp at hm
                | some d =>
                  rw [hx] at hm
                  have hd : d < 16 := by
                    unfold hexVal? at hx
                    simp only at hx
                    repeat' split at hx
                    all_goals simp at hx
                    all_goals omega
                  have := ih _ _ hm
                  calc m < (acc * 16 + d + 1) * 16 ^ xs.length := this
                    _ ≤ ((acc + 1) * 16) * 16 ^ xs.length := Nat.mul_le_mul_right _ (by omega)
                    _ = _ := by rw [List.length_cons, Nat.pow_succ, Nat.mul_assoc, Nat.mul_comm 16]
            cases hdv : digitsVal? 16 hexVal? 0 [a1, a2, a3, a4] with
            | none => rw [hdv] at hn; simp at hn
            | some m =>
              rw [hdv] at hn
              have := hb _ _ _ hdv
              simp at this
              simp only at hn
              split at hn
              · simp at hn; omega
              · simp at hn
        · decide
      · exact ⟨_, rfl, by decide⟩
    obtain ⟨x, hx, hx2⟩ := hne
    rw [hx]
    intro h
    simp only [List.singleton_append, List.cons.injEq] at h
    rw [h.1] at hx2
    omega

end Dxf
