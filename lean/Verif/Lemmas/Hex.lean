import Verif.Lemmas.Num
import Verif.Model.Hex

/-! Lemmas about hex strings and handles. -/

namespace Dxf

theorem strLen_ascii {s : Str} (h : ∀ c ∈ s, c.toNat < 128) : strLen s = s.length := by
  unfold strLen
  induction s with
  | nil => rfl
  | cons c cs ih =>
    have hc := h c List.mem_cons_self
    rw [List.map_cons, List.sum_cons, ih (fun d hd => h d (List.mem_cons_of_mem _ hd)),
      List.length_cons]
    unfold utf8Size
    rw [if_pos (by omega)]
    omega

/-- Big-endian value of bytes. -/
def beVal (acc : Nat) (bs : List Byte) : Nat := bs.foldl (fun a b => a * 256 + b.toNat) acc

theorem hexVal_lt {c : Char} {v : Nat} (h : hexVal? c = some v) : v < 16 := by
  unfold hexVal? at h
  simp only at h
  repeat' split at h
  all_goals simp at h
  all_goals omega

theorem hexVal_ascii {c : Char} {v : Nat} (h : hexVal? c = some v) : c.toNat < 128 := by
  unfold hexVal? at h
  simp only at h
  repeat' split at h
  all_goals simp at h
  all_goals omega

/-- The decoder on a string of hex digits. -/
theorem parseHexLoop_ok (off : Nat) : ∀ (s : Str) (complete : Bool) (cur acc : Nat),
    (∀ c ∈ s, (hexVal? c).isSome) → cur < 16 → (complete = true ↔ s.length % 2 = 1) →
    ∃ bs, parseHexLoop off complete cur s = .ok bs ∧
      digitsVal? 16 hexVal? (if complete then acc * 16 + cur else acc) s = some (beVal acc bs) ∧
      bs.length = (s.length + 1) / 2 := by
  intro s
  induction s with
  | nil =>
    intro complete cur acc _ _ hp
    cases complete
    · exact ⟨[], rfl, rfl, rfl⟩
    · simp at hp
  | cons c cs ih =>
    intro complete cur acc hs hcur hp
    have hc := hs c List.mem_cons_self
    have hcs : ∀ d ∈ cs, (hexVal? d).isSome := fun d hd => hs d (List.mem_cons_of_mem _ hd)
    obtain ⟨v, hv⟩ := Option.isSome_iff_exists.mp hc
    have hv16 := hexVal_lt hv
    unfold parseHexLoop
    simp only [hv]
    rw [List.length_cons] at hp ⊢
    cases complete
    · simp only [Bool.false_eq_true, false_iff] at hp
      obtain ⟨bs, h1, h2, h3⟩ := ih true v acc hcs hv16 (by simp; omega)
      refine ⟨bs, by simpa using h1, ?_, by omega⟩
      simp only [Bool.false_eq_true, if_false, digitsVal?, hv]
      simpa using h2
    · simp only [true_iff] at hp
      obtain ⟨bs, h1, h2, h3⟩ := ih false cur (acc * 256 + (cur * 16 + v)) hcs hcur
        (by simp; omega)
      refine ⟨BitVec.ofNat 8 (cur * 16 + v) :: bs, ?_, ?_, ?_⟩
      · simp [h1]
      · simp only [if_true, digitsVal?, hv]
        have hb : (BitVec.ofNat 8 (cur * 16 + v)).toNat = cur * 16 + v := by
          rw [BitVec.toNat_ofNat]; omega
        simp only [beVal, List.foldl_cons, hb]
        simp only [Bool.false_eq_true, if_false, beVal] at h2
        rw [← h2]
        congr 1; ring
      · simp only [List.length_cons]; omega

theorem parseHexString_ok (off : Nat) {s : Str} (hs : ∀ c ∈ s, (hexVal? c).isSome) :
    ∃ bs, parseHexString s off = .ok bs ∧ digitsVal? 16 hexVal? 0 s = some (beVal 0 bs) ∧
      bs.length = (s.length + 1) / 2 := by
  have ha : ∀ c ∈ s, c.toNat < 128 := by
    intro c hc
    obtain ⟨v, hv⟩ := Option.isSome_iff_exists.mp (hs c hc)
    exact hexVal_ascii hv
  unfold parseHexString
  rw [strLen_ascii ha]
  obtain ⟨bs, h1, h2, h3⟩ := parseHexLoop_ok off s (decide (s.length % 2 ≠ 0)) 0 0 hs (by omega)
    (by simp)
  refine ⟨bs, h1, ?_, h3⟩
  rw [← h2]
  congr 1
  split <;> omega

theorem parseHexLoop_bad (off : Nat) {s : Str} (hs : ∃ c ∈ s, hexVal? c = none) :
    ∀ complete cur, parseHexLoop off complete cur s = .error (.parseError off) := by
  induction s with
  | nil => obtain ⟨c, hc, _⟩ := hs; simp at hc
  | cons c cs ih =>
    intro complete cur
    unfold parseHexLoop
    cases hv : hexVal? c with
    | none => rfl
    | some v =>
      have : ∃ d ∈ cs, hexVal? d = none := by
        obtain ⟨d, hd, hdn⟩ := hs
        rcases List.mem_cons.mp hd with rfl | hd
        · rw [hv] at hdn; simp at hdn
        · exact ⟨d, hd, hdn⟩
      cases complete
      · simp only [Bool.false_eq_true, if_false]; exact ih this _ _
      · simp only [if_true, ih this]

theorem beVal_zeros (k : Nat) (bs : List Byte) :
    beVal 0 (List.replicate k 0 ++ bs) = beVal 0 bs := by
  induction k with
  | zero => rfl
  | succ k ih =>
    rw [List.replicate_succ, List.cons_append]
    simp only [beVal, List.foldl_cons] at *
    simpa using ih

/-- The decoder's bytes, as a handle. -/
theorem readU64BE_padTo8 {bs : List Byte} (h : bs.length ≤ 8) :
    readU64BE (padTo8 bs) = BitVec.ofNat 64 (beVal 0 bs) := by
  unfold readU64BE
  have hl : (padTo8 bs).length = 8 := by simp [padTo8]; omega
  rw [List.take_of_length_le (by omega)]
  have := beVal_zeros (8 - bs.length) bs
  unfold beVal at this
  rw [padTo8, this]
  rfl

theorem hexDigit_upper : ∀ n, n < 16 →
    ((48 ≤ (hexDigit n).toNat ∧ (hexDigit n).toNat ≤ 57) ∨
      (65 ≤ (hexDigit n).toNat ∧ (hexDigit n).toNat ≤ 70)) ∧
    (hexDigit n = '0' ↔ n = 0) := by
  decide +kernel

theorem fmtHex_upper (n : Nat) : ∀ c ∈ fmtHex n,
    (48 ≤ c.toNat ∧ c.toNat ≤ 57) ∨ (65 ≤ c.toNat ∧ c.toNat ≤ 70) := by
  intro c hc
  simp only [fmtHex, List.mem_map] at hc
  obtain ⟨d, hd, rfl⟩ := hc
  exact (hexDigit_upper d (digits_lt (by omega) _ d hd)).1

theorem fmtHex_isSome (n : Nat) : ∀ c ∈ fmtHex n, (hexVal? c).isSome := by
  intro c hc
  simp only [fmtHex, List.mem_map] at hc
  obtain ⟨d, hd, rfl⟩ := hc
  rw [hexVal_hexDigit (digits_lt (by omega) _ d hd)]; rfl

theorem fmtHex_head {n : Nat} (h : n ≠ 0) : (fmtHex n).head? ≠ some '0' := by
  intro hh
  unfold fmtHex at hh
  rw [List.head?_map, Option.map_eq_some_iff] at hh
  obtain ⟨d, hd, hd0⟩ := hh
  have hd16 : d < 16 := digits_lt (by omega) n d (List.mem_of_mem_head? hd)
  exact digits_head (by omega) h d hd ((hexDigit_upper d hd16).2.mp hd0)

theorem not_ws_of_range {c : Char} (h1 : 33 ≤ c.toNat) (h2 : c.toNat < 128) :
    isWhitespace c = false := by
  unfold isWhitespace
  simp
  omega

theorem asHandle_text (code : Int) (off : Nat) (h : Handle) (l r : Str)
    (hl : ∀ c ∈ l, isWhitespace c = true) (hr : ∀ c ∈ r, isWhitespace c = true) :
    (CodePair.mk code (.str (l ++ h.asString ++ r)) off).asHandle = .ok h := by
  unfold CodePair.asHandle CodePair.assertString
  simp only
  have htrim : trim (l ++ h.asString ++ r) = h.asString := by
    apply trim_pad hl hr
    · intro c hc
      have := fmtHex_ascii _ c hc
      exact not_ws_of_range (by omega) (by omega)
  rw [htrim]
  obtain ⟨bs, h1, h2, h3⟩ := parseHexString_ok off (fmtHex_isSome h.toNat)
  unfold Handle.asString
  rw [h1]
  simp only
  have hlen : (fmtHex h.toNat).length ≤ 16 := by
    simpa [fmtHex] using digits_length_le (b := 16) (by omega) (w := 16) (by omega)
      (Nat.lt_of_lt_of_le h.isLt (by norm_num))
  rw [readU64BE_padTo8 (by omega)]
  rw [digitsVal_fmtHex] at h2
  rw [← Option.some.inj h2, BitVec.ofNat_toNat, BitVec.setWidth_eq]

/-- The hex text of one byte has two digits with the byte's value. -/
theorem fmtByteHex_spec : ∀ b : Byte, ∃ c d : Char, fmtByteHex b = [c, d] ∧
    ∃ u v, hexVal? c = some u ∧ hexVal? d = some v ∧ u < 16 ∧ BitVec.ofNat 8 (u * 16 + v) = b := by
  intro b
  have hlen : (fmtHex b.toNat).length ≤ 2 := by
    have := b.isLt
    simpa [fmtHex] using digits_length_le (b := 16) (by omega) (w := 2) (by omega) (by omega)
  have hlen2 : (fmtByteHex b).length = 2 := by
    unfold fmtByteHex
    rw [padLeft_length]; omega
  have hval : digitsVal? 16 hexVal? 0 (fmtByteHex b) = some b.toNat := by
    unfold fmtByteHex
    rw [padLeft, digitsVal_zeros _ _ _ (by decide), digitsVal_fmtHex]
  generalize fmtByteHex b = t at *
  match t, hlen2 with
  | [c, d], _ =>
    refine ⟨c, d, rfl, ?_⟩
    simp only [digitsVal?] at hval
    cases hc : hexVal? c with
    | none => rw [hc] at hval; simp at hval
    | some u =>
      rw [hc] at hval; simp only at hval
      cases hd : hexVal? d with
      | none => rw [hd] at hval; simp at hval
      | some v =>
        rw [hd] at hval; simp only [Option.some.injEq] at hval
        refine ⟨u, v, rfl, rfl, hexVal_lt hc, ?_⟩
        rw [show u * 16 + v = b.toNat by omega]
        simp

theorem fmtBinary_ascii (bs : List Byte) : ∀ c ∈ fmtBinary bs, 48 ≤ c.toNat ∧ c.toNat ≤ 70 := by
  intro c hc
  simp only [fmtBinary, List.mem_flatMap] at hc
  obtain ⟨b, _, hc⟩ := hc
  simp only [fmtByteHex, padLeft, List.mem_append, List.mem_replicate] at hc
  rcases hc with ⟨_, rfl⟩ | hc
  · decide
  · exact fmtHex_ascii _ c hc

theorem fmtBinary_length (bs : List Byte) : (fmtBinary bs).length = 2 * bs.length := by
  induction bs with
  | nil => rfl
  | cons b bs ih =>
    obtain ⟨c, d, h, _⟩ := fmtByteHex_spec b
    simp only [fmtBinary, List.flatMap_cons, List.length_append, List.length_cons] at *
    rw [h, ih]; simp; omega

/-- Decoding is insensitive to replacing digits by others of the same value. -/
theorem parseHexLoop_congr (off : Nat) : ∀ (s t : Str) (complete : Bool) (cur : Nat),
    s.map hexVal? = t.map hexVal? →
    parseHexLoop off complete cur s = parseHexLoop off complete cur t := by
  intro s
  induction s with
  | nil => intro t _ _ h; cases t with
    | nil => rfl
    | cons _ _ => simp at h
  | cons c cs ih =>
    intro t complete cur h
    cases t with
    | nil => simp at h
    | cons d ds =>
      simp only [List.map_cons, List.cons.injEq] at h
      unfold parseHexLoop
      rw [h.1]
      split
      · rfl
      · rw [ih ds _ _ h.2, ih ds _ _ h.2]

theorem parseHexLoop_binary (off : Nat) (bs : List Byte) (cur : Nat) :
    parseHexLoop off false cur (fmtBinary bs) = .ok bs := by
  induction bs generalizing cur with
  | nil => rfl
  | cons b bs ih =>
    obtain ⟨c, d, h, u, v, hu, hv, hu16, hb⟩ := fmtByteHex_spec b
    have : fmtBinary (b :: bs) = c :: d :: fmtBinary bs := by
      simp [fmtBinary, List.flatMap_cons, h]
    rw [this]
    simp [parseHexLoop, hu, hv, ih, hb]

theorem parseHexString_binary (off : Nat) (bs : List Byte) :
    parseHexString (fmtBinary bs) off = .ok bs := by
  unfold parseHexString
  rw [strLen_ascii (fun c hc => by have := fmtBinary_ascii bs c hc; omega), fmtBinary_length]
  have : decide (2 * bs.length % 2 ≠ 0) = false := by simp
  rw [this]
  exact parseHexLoop_binary off bs 0

theorem hexVal_toLower (c : Char) (h : (hexVal? c).isSome) : hexVal? (asciiLower c) = hexVal? c := by
  have hlt : c.toNat < 128 := by
    obtain ⟨v, hv⟩ := Option.isSome_iff_exists.mp h
    exact hexVal_ascii hv
  have table : ∀ n, n < 128 → (hexVal? (Char.ofNat n)).isSome →
      hexVal? (asciiLower (Char.ofNat n)) = hexVal? (Char.ofNat n) := by decide +kernel
  have := table c.toNat hlt
  rw [Char.ofNat_toNat] at this
  exact this h

end Dxf
