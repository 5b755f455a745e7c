import Verif.Model.Escape

namespace Dxf

theorem toNat_ofNat_of_valid {n : Nat} (h : n.isValidChar) : (Char.ofNat n).toNat = n := by
  unfold Char.ofNat
  rw [dif_pos h]
  simp [Char.ofNatAux, Char.toNat]

theorem toNat_valid (c : Char) : c.toNat.isValidChar := c.valid

theorem toNat_ofNat_lt {n : Nat} (h : n < 0xD800) : (Char.ofNat n).toNat = n :=
  toNat_ofNat_of_valid (Or.inl h)

theorem char_eq_ofNat {c : Char} {n : Nat} (h : c.toNat = n) : c = Char.ofNat n := by
  rw [← h, Char.ofNat_toNat]

/-! ### Control characters -/

theorem escapeLetter_table : ∀ n, n < 95 → (n ≤ 31 ∨ n = 94) →
    ((escapeLetter n).any fun l =>
      Char.ofNat (unescapeByte l) = Char.ofNat n ∧ 32 ≤ l.toNat ∧ l.toNat < 96) = true := by
  decide +kernel

theorem escapeLetter_spec {c : Char} (h : needsEscaping c = true) :
    ∃ l, escapeLetter (c.toNat % 256) = some l ∧ Char.ofNat (unescapeByte l) = c ∧
      32 ≤ l.toNat ∧ l.toNat < 96 := by
  have h' : c.toNat ≤ 31 ∨ c.toNat = 94 := by
    simpa [needsEscaping] using h
  have hlt : c.toNat < 95 := by omega
  have := escapeLetter_table c.toNat hlt h'
  have hm : c.toNat % 256 = c.toNat := Nat.mod_eq_of_lt (by omega)
  rw [hm]
  cases hl : escapeLetter c.toNat with
  | none => simp [hl] at this
  | some l =>
    simp only [hl, Option.any_some, decide_eq_true_eq] at this
    rw [Char.ofNat_toNat] at this
    exact ⟨l, rfl, this⟩

theorem escapeControl?_eq (s : Str) : escapeControl? s = some (escapeControl s) := by
  induction s with
  | nil => rfl
  | cons c cs ih =>
    unfold escapeControl? escapeControl
    by_cases h : needsEscaping c = true
    · obtain ⟨l, hl, _⟩ := escapeLetter_spec h
      simp [h, hl, ih]
    · simp [h, ih]

theorem escapeControl_cons_esc {c : Char} (h : needsEscaping c = true) (cs : Str) :
    ∃ l, escapeControl (c :: cs) = '^' :: l :: escapeControl cs ∧
      Char.ofNat (unescapeByte l) = c ∧ 32 ≤ l.toNat ∧ l.toNat < 96 := by
  obtain ⟨l, hl, h2⟩ := escapeLetter_spec h
  exact ⟨l, by simp [escapeControl, h, hl], h2⟩

theorem escapeControl_cons_raw {c : Char} (h : ¬ needsEscaping c = true) (cs : Str) :
    escapeControl (c :: cs) = c :: escapeControl cs := by
  simp [escapeControl, h]

theorem unescape_escape (s : Str) : unescapeString (escapeControl s) = s := by
  unfold unescapeString
  induction s with
  | nil => rfl
  | cons c cs ih =>
    by_cases h : needsEscaping c = true
    · obtain ⟨l, hl, hc, _⟩ := escapeControl_cons_esc h cs
      rw [hl]
      simp [unescapeLoop, ih, hc]
    · rw [escapeControl_cons_raw h]
      have : c ≠ '^' := by
        intro hc; subst hc; exact h (by decide)
      simp [unescapeLoop, this, ih]

theorem escapeControl_ge (s : Str) : ∀ c ∈ escapeControl s, 32 ≤ c.toNat := by
  induction s with
  | nil => simp [escapeControl]
  | cons c cs ih =>
    by_cases h : needsEscaping c = true
    · obtain ⟨l, hl, _, h1, _⟩ := escapeControl_cons_esc h cs
      rw [hl]
      intro d hd
      simp only [List.mem_cons] at hd
      rcases hd with rfl | rfl | hd
      · decide
      · exact h1
      · exact ih d hd
    · rw [escapeControl_cons_raw h]
      intro d hd
      simp only [List.mem_cons] at hd
      rcases hd with rfl | hd
      · simp [needsEscaping] at h; omega
      · exact ih d hd

/-- Characters at or above U+0060 are only copied by the escaping. -/
theorem escapeControl_mem_high (s : Str) (d : Char) (hd : d ∈ escapeControl s)
    (h96 : 96 ≤ d.toNat) : d ∈ s := by
  induction s with
  | nil => simp [escapeControl] at hd
  | cons c cs ih =>
    by_cases h : needsEscaping c = true
    · obtain ⟨l, hl, _, _, h2⟩ := escapeControl_cons_esc h cs
      rw [hl] at hd
      simp only [List.mem_cons] at hd
      rcases hd with rfl | rfl | hd
      · exact absurd h96 (by decide)
      · omega
      · exact List.mem_cons_of_mem _ (ih hd)
    · rw [escapeControl_cons_raw h] at hd
      simp only [List.mem_cons] at hd
      rcases hd with rfl | hd
      · exact List.mem_cons_self
      · exact List.mem_cons_of_mem _ (ih hd)

/-! ### Positional digits -/

/-- Value of least-significant-first digits. -/
def valRev (b : Nat) : List Nat → Nat
  | [] => 0
  | d :: ds => d + b * valRev b ds

theorem digitsRev_val {b : Nat} (hb : 2 ≤ b) : ∀ (fuel n : Nat), n < 2 ^ fuel →
    valRev b (digitsRev fuel b n) = n := by
  intro fuel
  induction fuel with
  | zero => intro n h; simp at h; subst h; rfl
  | succ f ih =>
    intro n h
    unfold digitsRev
    by_cases h0 : n / b = 0
    · have : n < b := by
        have := Nat.div_add_mod n b
        have hm := Nat.mod_lt n (show 0 < b by omega)
        rw [h0] at this; omega
      simp [h0, valRev, Nat.mod_eq_of_lt this]
    · simp only [h0, if_false, valRev]
      have : n / b < 2 ^ f := by
        have h1 : n / b ≤ n / 2 := Nat.div_le_div_left hb (by omega)
        have : n / 2 < 2 ^ f := by
          rw [Nat.div_lt_iff_lt_mul (by omega)]
          rw [Nat.pow_succ] at h; exact h
        omega
      rw [ih _ this]
      have := Nat.div_add_mod n b
      omega

theorem digitsRev_lt {b : Nat} (hb : 2 ≤ b) : ∀ (fuel n : Nat), ∀ d ∈ digitsRev fuel b n, d < b := by
  intro fuel
  induction fuel with
  | zero => intro n d hd; simp [digitsRev] at hd
  | succ f ih =>
    intro n d hd
    unfold digitsRev at hd
    simp only [List.mem_cons] at hd
    rcases hd with rfl | hd
    · exact Nat.mod_lt _ (by omega)
    · split at hd
      · simp at hd
      · exact ih _ d hd

theorem digits_lt {b : Nat} (hb : 2 ≤ b) (n : Nat) : ∀ d ∈ digits b n, d < b := by
  intro d hd
  exact digitsRev_lt hb _ _ d (by simpa [digits] using hd)

theorem digits_ne_nil (b n : Nat) : digits b n ≠ [] := by
  simp [digits, digitsRev]

/-- Value of most-significant-first digits. -/
def valOf (b : Nat) (acc : Nat) : List Nat → Nat
  | [] => acc
  | d :: ds => valOf b (acc * b + d) ds

theorem valOf_append (b acc : Nat) (l r : List Nat) :
    valOf b acc (l ++ r) = valOf b (valOf b acc l) r := by
  induction l generalizing acc with
  | nil => rfl
  | cons d ds ih => simp [valOf, ih]

theorem valOf_reverse (b : Nat) (l : List Nat) : valOf b 0 l.reverse = valRev b l := by
  induction l with
  | nil => rfl
  | cons d ds ih =>
    rw [List.reverse_cons, valOf_append, ih]
    simp only [valOf, valRev]
    rw [Nat.mul_comm, Nat.add_comm]

theorem valOf_digits {b : Nat} (hb : 2 ≤ b) (n : Nat) : valOf b 0 (digits b n) = n := by
  rw [digits, valOf_reverse, digitsRev_val hb _ _ Nat.lt_log2_self]

theorem valOf_lt {b : Nat} (acc : Nat) (l : List Nat) (h : ∀ d ∈ l, d < b) :
    valOf b acc l < (acc + 1) * b ^ l.length := by
  induction l generalizing acc with
  | nil => simp [valOf]
  | cons d ds ih =>
    simp only [valOf, List.length_cons]
    have h1 := ih (acc * b + d) (fun x hx => h x (List.mem_cons_of_mem _ hx))
    have hd : d < b := h d List.mem_cons_self
    have : (acc * b + d + 1) * b ^ ds.length ≤ ((acc + 1) * b) * b ^ ds.length := by
      apply Nat.mul_le_mul_right
      rw [Nat.add_mul]; omega
    calc _ < _ := h1
      _ ≤ _ := this
      _ = _ := by rw [Nat.pow_succ, Nat.mul_assoc, Nat.mul_comm b]

theorem digitsRev_length_le {b : Nat} (hb : 2 ≤ b) : ∀ (fuel n w : Nat), 0 < w → n < b ^ w →
    (digitsRev fuel b n).length ≤ w := by
  intro fuel
  induction fuel with
  | zero => intro n w _ _; simp [digitsRev]
  | succ f ih =>
    intro n w hw h
    unfold digitsRev
    by_cases h0 : n / b = 0
    · simp [h0]; omega
    · simp only [h0, if_false, List.length_cons]
      cases w with
      | zero => omega
      | succ w =>
        have hlt : n / b < b ^ w := by
          rw [Nat.div_lt_iff_lt_mul (by omega)]
          rw [Nat.pow_succ] at h; exact h
        cases w with
        | zero => exact absurd (by simpa using hlt) h0
        | succ w => have := ih (n / b) (w + 1) (by omega) hlt; omega

theorem digits_length_le {b : Nat} (hb : 2 ≤ b) {n w : Nat} (hw : 0 < w) (h : n < b ^ w) :
    (digits b n).length ≤ w := by
  simpa [digits] using digitsRev_length_le hb _ n w hw h

theorem digitsRev_getLast {b : Nat} (hb : 2 ≤ b) : ∀ (fuel n : Nat), n ≠ 0 → n < 2 ^ fuel →
    ∀ d, (digitsRev fuel b n).getLast? = some d → d ≠ 0 := by
  intro fuel
  induction fuel with
  | zero => intro n h0 h; simp at h; omega
  | succ f ih =>
    intro n h0 h d hd
    unfold digitsRev at hd
    by_cases hq : n / b = 0
    · have : n < b := by
        have := Nat.div_add_mod n b
        have hm := Nat.mod_lt n (show 0 < b by omega)
        rw [hq] at this; omega
      simp only [hq, if_true, List.getLast?_singleton, Option.some.injEq] at hd
      rw [Nat.mod_eq_of_lt this] at hd; omega
    · simp only [hq, if_false] at hd
      have hlt : n / b < 2 ^ f := by
        have h1 : n / b ≤ n / 2 := Nat.div_le_div_left hb (by omega)
        have : n / 2 < 2 ^ f := by
          rw [Nat.div_lt_iff_lt_mul (by omega)]
          rw [Nat.pow_succ] at h; exact h
        omega
      apply ih (n / b) hq hlt d
      rw [List.getLast?_cons] at hd
      cases hg : (digitsRev f b (n / b)).getLast? with
      | none =>
        rw [List.getLast?_eq_none_iff] at hg
        cases f with
        | zero => simp at hlt; exact absurd hlt (by simpa using hq)
        | succ f => simp [digitsRev] at hg
      | some x => rw [hg] at hd; simpa using hd

theorem digits_head {b : Nat} (hb : 2 ≤ b) {n : Nat} (h0 : n ≠ 0) :
    ∀ d, (digits b n).head? = some d → d ≠ 0 := by
  intro d hd
  apply digitsRev_getLast hb (n.log2 + 1) n h0 Nat.lt_log2_self d
  simpa [digits, List.head?_reverse] using hd

theorem hexDigit_table : ∀ n, n < 16 →
    (hexVal? (hexDigit n) = some n ∧ 48 ≤ (hexDigit n).toNat ∧ (hexDigit n).toNat ≤ 70) := by
  decide +kernel

theorem hexVal_hexDigit {n : Nat} (h : n < 16) : hexVal? (hexDigit n) = some n :=
  (hexDigit_table n h).1

theorem digitsVal_map {b : Nat} {dig : Char → Option Nat} (l : List Nat) (acc : Nat)
    (h : ∀ d ∈ l, dig (hexDigit d) = some d) :
    digitsVal? b dig acc (l.map hexDigit) = some (valOf b acc l) := by
  induction l generalizing acc with
  | nil => rfl
  | cons d ds ih =>
    simp only [List.map_cons, digitsVal?]
    rw [h d List.mem_cons_self]
    exact ih _ (fun x hx => h x (List.mem_cons_of_mem _ hx))

theorem digitsVal_zeros {b : Nat} (l : Str) (k : Nat) (dig : Char → Option Nat)
    (h0 : dig '0' = some 0) :
    digitsVal? b dig 0 (List.replicate k '0' ++ l) = digitsVal? b dig 0 l := by
  induction k with
  | zero => simp
  | succ k ih => simp [List.replicate_succ, digitsVal?, h0, ih]

theorem fmtHex_ne_nil (n : Nat) : fmtHex n ≠ [] := by
  simp [fmtHex, digits_ne_nil]

theorem digitsVal_fmtHex (n : Nat) : digitsVal? 16 hexVal? 0 (fmtHex n) = some n := by
  rw [fmtHex, digitsVal_map, valOf_digits (by omega)]
  intro d hd
  exact hexVal_hexDigit (digits_lt (by omega) _ d hd)

/-! ### Unicode escapes -/

theorem padLeft_length (w : Nat) (c : Char) (s : Str) :
    (padLeft w c s).length = max w s.length := by
  simp [padLeft]; omega

theorem hex4_length {n : Nat} (h : n < 0x10000) : (padLeft 4 '0' (fmtHex n)).length = 4 := by
  rw [padLeft_length]
  have : (fmtHex n).length ≤ 4 := by
    simpa [fmtHex] using digits_length_le (b := 16) (by omega) (w := 4) (by omega) (by omega)
  omega

theorem parseU32Hex_hex4 {n : Nat} (h : n < 0x10000) :
    parseU32Hex (padLeft 4 '0' (fmtHex n)) = some n := by
  have hlen := hex4_length h
  have hval : digitsVal? 16 hexVal? 0 (padLeft 4 '0' (fmtHex n)) = some n := by
    rw [padLeft, digitsVal_zeros _ _ _ (by decide), digitsVal_fmtHex]
  have hss : stripSign (padLeft 4 '0' (fmtHex n)) = (false, padLeft 4 '0' (fmtHex n)) := by
    generalize hs : padLeft 4 '0' (fmtHex n) = s at *
    match s, hlen, hval with
    | c :: cs, _, hval =>
      have hplus : c ≠ '+' := by
        intro hc; subst hc
        have : hexVal? '+' = none := by decide
        simp [digitsVal?, this] at hval
      have hminus : c ≠ '-' := by
        intro hc; subst hc
        have : hexVal? '-' = none := by decide
        simp [digitsVal?, this] at hval
      simp [stripSign, hplus, hminus]
  have hne : padLeft 4 '0' (fmtHex n) ≠ [] := by
    intro h; rw [h] at hlen; simp at hlen
  simp [parseU32Hex, hss, hne, hval]
  omega

/-- Decoding one complete escape block. -/
theorem unescapeUnicode_block (seq : Str) (hl : seq.length = 6) (rest : Str) (c : Char) :
    unescapeUnicodeLoop (some (c :: seq.take 0)) (seq ++ rest) =
      decodeSeq (c :: seq) ++ unescapeUnicodeLoop none rest := by
  match seq, hl with
  | [a1, a2, a3, a4, a5, a6], _ => simp [unescapeUnicodeLoop]

theorem unescapeUnicode_char {c : Char} (h2 : c.toNat < 0x10000)
    (rest : Str) :
    unescapeUnicodeLoop none (str!"\\U+" ++ padLeft 4 '0' (fmtHex c.toNat) ++ rest) =
      c :: unescapeUnicodeLoop none rest := by
  have hlen := hex4_length h2
  have hp := parseU32Hex_hex4 h2
  have hb := unescapeUnicode_block ('U' :: '+' :: padLeft 4 '0' (fmtHex c.toNat))
    (by simp [hlen]) rest '\\'
  simp only [List.take_zero, List.cons_append] at hb
  have hstep : unescapeUnicodeLoop none
      (str!"\\U+" ++ padLeft 4 '0' (fmtHex c.toNat) ++ rest) =
      unescapeUnicodeLoop (some ['\\'])
        ('U' :: '+' :: (padLeft 4 '0' (fmtHex c.toNat) ++ rest)) := by
    simp only [List.cons_append, List.nil_append]
    rw [unescapeUnicodeLoop]; simp
  rw [hstep, hb]
  simp [decodeSeq, hp, charFromU32, toNat_valid, Char.ofNat_toNat]

theorem unescapeUnicode_escapeUnicode (s : Str)
    (h : ∀ c ∈ s, c ≠ '\\' ∧ c.toNat < 0x10000) :
    unescapeUnicode (escapeUnicode s) = s := by
  unfold unescapeUnicode
  induction s with
  | nil => rfl
  | cons c cs ih =>
    obtain ⟨hb, hn⟩ := h c List.mem_cons_self
    have ih := ih (fun x hx => h x (List.mem_cons_of_mem _ hx))
    unfold escapeUnicode
    by_cases h1 : c.toNat ≥ 128
    · rw [if_pos h1, unescapeUnicode_char hn, ih]
    · rw [if_neg h1]
      simp [unescapeUnicodeLoop, hb, ih]

theorem fmtHex_ascii (n : Nat) : ∀ c ∈ fmtHex n, 48 ≤ c.toNat ∧ c.toNat ≤ 70 := by
  intro c hc
  simp only [fmtHex, List.mem_map] at hc
  obtain ⟨d, hd, rfl⟩ := hc
  exact (hexDigit_table d (digits_lt (by omega) _ d hd)).2

theorem escapeUnicode_ascii (s : Str) : ∀ c ∈ escapeUnicode s, c.toNat < 128 := by
  induction s with
  | nil => simp [escapeUnicode]
  | cons c cs ih =>
    unfold escapeUnicode
    split
    · intro d hd
      simp only [List.mem_append] at hd
      rcases hd with (hd | hd) | hd
      · simp at hd; rcases hd with rfl | rfl | rfl <;> decide
      · simp only [padLeft, List.mem_append, List.mem_replicate] at hd
        rcases hd with ⟨_, rfl⟩ | hd
        · decide
        · have := fmtHex_ascii _ d hd; omega
      · exact ih d hd
    · intro d hd
      simp only [List.mem_cons] at hd
      rcases hd with rfl | hd
      · omega
      · exact ih d hd

theorem escapeUnicode_ge (s : Str) (h : ∀ c ∈ s, 32 ≤ c.toNat) :
    ∀ c ∈ escapeUnicode s, 32 ≤ c.toNat := by
  induction s with
  | nil => simp [escapeUnicode]
  | cons c cs ih =>
    have ih := ih (fun x hx => h x (List.mem_cons_of_mem _ hx))
    unfold escapeUnicode
    split
    · intro d hd
      simp only [List.mem_append] at hd
      rcases hd with (hd | hd) | hd
      · simp at hd; rcases hd with rfl | rfl | rfl <;> decide
      · simp only [padLeft, List.mem_append, List.mem_replicate] at hd
        rcases hd with ⟨_, rfl⟩ | hd
        · decide
        · have := fmtHex_ascii _ d hd; omega
      · exact ih d hd
    · intro d hd
      simp only [List.mem_cons] at hd
      rcases hd with rfl | hd
      · exact h _ List.mem_cons_self
      · exact ih d hd

theorem backslash_free {s : Str} (h : ∀ c ∈ s, c ≠ '\\' ∧ c.toNat ≠ 0x1C ∧ c.toNat < 0x10000) :
    ∀ c ∈ escapeControl s, c ≠ '\\' ∧ c.toNat < 0x10000 := by
  have table : ∀ n, n < 95 → n ≠ 0x1C → escapeLetter n ≠ some '\\' := by decide +kernel
  induction s with
  | nil => simp [escapeControl]
  | cons c cs ih =>
    have hc := h c List.mem_cons_self
    have ih := ih (fun d hd => h d (List.mem_cons_of_mem _ hd))
    intro d hd
    by_cases hn : needsEscaping c = true
    · obtain ⟨l, hl, _, h32, h96⟩ := escapeLetter_spec hn
      have : escapeControl (c :: cs) = '^' :: l :: escapeControl cs := by
        simp [escapeControl, hn, hl]
      rw [this] at hd
      rcases List.mem_cons.mp hd with rfl | hd
      · exact ⟨by decide, by decide⟩
      · rcases List.mem_cons.mp hd with rfl | hd
        · have hc95 : c.toNat < 95 := by simp [needsEscaping] at hn; omega
          refine ⟨fun hh => ?_, by omega⟩
          subst hh
          rw [Nat.mod_eq_of_lt (by omega)] at hl
          exact table c.toNat hc95 hc.2.1 hl
        · exact ih d hd
    · rw [escapeControl_cons_raw hn] at hd
      rcases List.mem_cons.mp hd with rfl | hd
      · exact ⟨hc.1, hc.2.2⟩
      · exact ih d hd

end Dxf
