import Verif.Lemmas.Float

/-! Numbers as text: round trips of the formatting and parsing functions. -/

namespace Dxf

/-! ### Trimming -/

theorem dropWhile_all {p : Char → Bool} (l r : Str) (h : ∀ c ∈ l, p c = true) :
    (l ++ r).dropWhile p = r.dropWhile p := by
  induction l with
  | nil => rfl
  | cons c cs ih =>
    simp only [List.cons_append, List.dropWhile_cons, h c List.mem_cons_self, if_true]
    exact ih (fun x hx => h x (List.mem_cons_of_mem _ hx))

theorem dropWhile_none {p : Char → Bool} (s : Str) (h : ∀ c ∈ s, p c = false) :
    s.dropWhile p = s := by
  cases s with
  | nil => rfl
  | cons c cs => simp [List.dropWhile_cons, h c List.mem_cons_self]

/-- Trimming removes surrounding white space from a string without white space. -/
theorem trim_pad {l s r : Str} (hl : ∀ c ∈ l, isWhitespace c = true)
    (hr : ∀ c ∈ r, isWhitespace c = true) (hs : ∀ c ∈ s, isWhitespace c = false) :
    trim (l ++ s ++ r) = s := by
  unfold trim
  rw [List.append_assoc, dropWhile_all l _ hl]
  cases s with
  | nil =>
    have : ([] ++ r : Str).dropWhile isWhitespace = [] := by
      have := dropWhile_all r [] hr
      simpa using this
    rw [this]; rfl
  | cons c cs =>
    have : ((c :: cs) ++ r).dropWhile isWhitespace = (c :: cs) ++ r := by
      simp [List.dropWhile_cons, hs c List.mem_cons_self]
    rw [this, List.reverse_append, dropWhile_all]
    · rw [dropWhile_none]
      · simp
      · intro x hx; exact hs x (List.mem_reverse.mp hx)
    · intro x hx; exact hr x (List.mem_reverse.mp hx)

theorem trim_self {s : Str} (hs : ∀ c ∈ s, isWhitespace c = false) : trim s = s := by
  have := trim_pad (l := []) (r := []) (by simp) (by simp) hs
  simpa using this

theorem trim_padLeft {s : Str} (w : Nat) (hs : ∀ c ∈ s, isWhitespace c = false) :
    trim (padLeft w ' ' s) = s := by
  have := trim_pad (l := List.replicate (w - s.length) ' ') (s := s) (r := []) (by
    intro c hc; rw [List.mem_replicate] at hc; rw [hc.2]; decide) (by simp) hs
  simpa [padLeft] using this

/-! ### Decimal digits -/

theorem decDigit_table : ∀ n, n < 10 →
    (decVal? (hexDigit n) = some n ∧ 48 ≤ (hexDigit n).toNat ∧ (hexDigit n).toNat ≤ 57) := by
  decide +kernel

theorem fmtNat_chars (n : Nat) : ∀ c ∈ fmtNat n, 48 ≤ c.toNat ∧ c.toNat ≤ 57 := by
  intro c hc
  simp only [fmtNat, List.mem_map] at hc
  obtain ⟨d, hd, rfl⟩ := hc
  exact (decDigit_table d (digits_lt (by omega) _ d hd)).2

theorem fmtNat_ne_nil (n : Nat) : fmtNat n ≠ [] := by simp [fmtNat, digits_ne_nil]

theorem digitsVal_fmtNat (n : Nat) : digitsVal? 10 decVal? 0 (fmtNat n) = some n := by
  rw [fmtNat, digitsVal_map, valOf_digits (by omega)]
  intro d hd
  exact (decDigit_table d (digits_lt (by omega) _ d hd)).1

theorem isWs_digit {c : Char} (h : 48 ≤ c.toNat ∧ c.toNat ≤ 57) : isWhitespace c = false := by
  unfold isWhitespace
  simp
  omega

theorem decVal_of_digit {c : Char} (h : 48 ≤ c.toNat ∧ c.toNat ≤ 57) :
    decVal? c = some (c.toNat - 48) := by
  simp [decVal?, h]

theorem stripSign_digit {c : Char} (h : 48 ≤ c.toNat ∧ c.toNat ≤ 57) (cs : Str) :
    stripSign (c :: cs) = (false, c :: cs) := by
  have h1 : c ≠ '-' := by intro h'; subst h'; revert h; decide
  have h2 : c ≠ '+' := by intro h'; subst h'; revert h; decide
  simp [stripSign, h1, h2]

theorem stripSign_digits {s : Str} (hne : s ≠ []) (h : ∀ c ∈ s, 48 ≤ c.toNat ∧ c.toNat ≤ 57)
    (r : Str) : stripSign (s ++ r) = (false, s ++ r) := by
  cases s with
  | nil => exact absurd rfl hne
  | cons c cs => exact stripSign_digit (h c List.mem_cons_self) _

theorem stripSign_fmtInt (i : Int) :
    stripSign (fmtInt i) = (decide (i < 0), fmtNat i.natAbs) := by
  unfold fmtInt
  split
  · simp [stripSign, *]
  · have := stripSign_digits (fmtNat_ne_nil i.natAbs) (fmtNat_chars _) []
    simp only [List.append_nil] at this
    rw [this]; simp [*]

theorem fmtInt_chars (i : Int) : ∀ c ∈ fmtInt i, 45 ≤ c.toNat ∧ c.toNat ≤ 57 := by
  unfold fmtInt
  intro c hc
  split at hc
  · simp only [List.mem_cons] at hc
    rcases hc with rfl | hc
    · decide
    · have := fmtNat_chars _ c hc; omega
  · have := fmtNat_chars _ c hc; omega

theorem fmtInt_ne_nil (i : Int) : fmtInt i ≠ [] := by
  unfold fmtInt
  split
  · simp
  · exact fmtNat_ne_nil _

theorem isWs_low {c : Char} (h : 33 ≤ c.toNat ∧ c.toNat ≤ 126) : isWhitespace c = false := by
  unfold isWhitespace
  simp
  omega

theorem fmtInt_no_ws (i : Int) : ∀ c ∈ fmtInt i, isWhitespace c = false := by
  intro c hc
  have := fmtInt_chars i c hc
  exact isWs_low (by omega)

theorem parseInt_fmtInt {lo hi i : Int} (h1 : lo ≤ i) (h2 : i ≤ hi) :
    parseInt lo hi (fmtInt i) = some i := by
  unfold parseInt
  rw [stripSign_fmtInt]
  simp only [fmtNat_ne_nil, if_false, digitsVal_fmtNat]
  have hv : (if decide (i < 0) = true then -((i.natAbs : Nat) : Int) else (i.natAbs : Nat)) = i := by
    split
    · rename_i h; rw [decide_eq_true_eq] at h; omega
    · rename_i h; rw [decide_eq_true_eq] at h; omega
  simp only [hv]
  rw [if_pos ⟨h1, h2⟩]

theorem parseI32_pad (w : Nat) (v : I32) (off : Nat) :
    parseI32 (padLeft w ' ' (fmtInt v.toInt)) off = .ok v := by
  unfold parseI32
  rw [trim_padLeft w (fmtInt_no_ws _), parseInt_fmtInt]
  · simp
  · have := BitVec.le_toInt v; simpa using this
  · have := BitVec.toInt_lt (x := v); simp at this ⊢; omega

theorem padLeft_zero (c : Char) (s : Str) : padLeft 0 c s = s := by simp [padLeft]

theorem parseI32_fmt (v : I32) (off : Nat) : parseI32 (fmtInt v.toInt) off = .ok v := by
  have := parseI32_pad 0 v off
  rwa [padLeft_zero] at this

theorem parseI64_fmt (v : I64) (off : Nat) : parseI64 (fmtInt v.toInt) off = .ok v := by
  unfold parseI64
  rw [trim_self (fmtInt_no_ws _), parseInt_fmtInt]
  · simp
  · have := BitVec.le_toInt v; simpa using this
  · have := BitVec.toInt_lt (x := v); simp at this ⊢; omega

/-! ### Parsing decimals -/

theorem takeWhile_digits {s r : Str} (hs : ∀ c ∈ s, 48 ≤ c.toNat ∧ c.toNat ≤ 57)
    (hr : ∀ c, r.head? = some c → decVal? c = none) : takeDigits (s ++ r) = (s, r) := by
  unfold takeDigits
  induction s with
  | nil =>
    cases r with
    | nil => rfl
    | cons c cs =>
      have := hr c rfl
      simp [List.takeWhile_cons, List.dropWhile_cons, this]
  | cons c cs ih =>
    have hc := decVal_of_digit (hs c List.mem_cons_self)
    have ih := ih (fun x hx => hs x (List.mem_cons_of_mem _ hx))
    simp only [Prod.mk.injEq] at ih
    simp only [List.cons_append, List.takeWhile_cons, List.dropWhile_cons, hc, Option.isSome_some,
      if_true, Prod.mk.injEq, List.cons.injEq, true_and]
    exact ih

/-- A plain digit string is read as an integer mantissa. -/
theorem parseDecimal_digits {s : Str} (hne : s ≠ [])
    (hs : ∀ c ∈ s, 48 ≤ c.toNat ∧ c.toNat ≤ 57) {n : Nat}
    (hv : digitsVal? 10 decVal? 0 s = some n) : parseDecimal s = some (n, 0) := by
  unfold parseDecimal
  have h1 := takeWhile_digits (r := []) hs (by simp)
  simp only [List.append_nil] at h1
  simp [h1, takeFraction, hne, hv, parseExp]

/-- `int.frac` is read as mantissa `int ++ frac` and exponent `-|frac|`. -/
theorem parseDecimal_frac {s f : Str} (hne : s ≠ [])
    (hs : ∀ c ∈ s, 48 ≤ c.toNat ∧ c.toNat ≤ 57)
    (hf : ∀ c ∈ f, 48 ≤ c.toNat ∧ c.toNat ≤ 57) {n : Nat}
    (hv : digitsVal? 10 decVal? 0 (s ++ f) = some n) :
    parseDecimal (s ++ '.' :: f) = some (n, -(f.length : Int)) := by
  unfold parseDecimal
  have h1 := takeWhile_digits (r := '.' :: f) hs (by simp; decide)
  have h2 := takeWhile_digits (r := []) hf (by simp)
  simp only [List.append_nil] at h2
  simp [h1, takeFraction, h2, hne, hv, parseExp]

/-! ### Shorts through doubles -/

theorem rawMag_int (n : Nat) (h : n < 2 ^ 53) :
    F64.unitsOf (rawMag (n * F64.oneUnits) 1) = n * F64.oneUnits := by
  rw [unitsOf_rawMag _ (by omega)]
  unfold ratSig
  obtain ⟨e0, he0, _⟩ := oneUnits_pow
  rw [he0]
  generalize e0 + 39 = e
  generalize hs : ratExp (n * 2 ^ e) 1 = s
  have hle : s ≤ e := by
    rw [← hs]; unfold ratExp
    rw [Nat.div_one]
    rcases Nat.eq_zero_or_pos n with rfl | hn
    · rw [Nat.zero_mul]; have : Nat.log2 0 = 0 := by decide
      omega
    · have h0 : n * 2 ^ e ≠ 0 := Nat.ne_of_gt (Nat.mul_pos hn (by positivity))
      have : (n * 2 ^ e).log2 < 53 + e := by
        rw [Nat.log2_lt h0, Nat.pow_add]
        exact Nat.mul_lt_mul_of_pos_right h (by positivity)
      omega
  have he : n * 2 ^ e = (n * 2 ^ (e - s)) * (1 * 2 ^ s) := by
    rw [Nat.one_mul, Nat.mul_assoc, ← Nat.pow_add]
    congr 2; omega
  rw [he, roundHalfEven_exact _ (by positivity)]
  rw [Nat.one_mul]

theorem rawMag_int_lt (n : Nat) (h : n < 2 ^ 53) : rawMag (n * F64.oneUnits) 1 < F64.infMag := by
  rcases Nat.lt_or_ge (rawMag (n * F64.oneUnits) 1) F64.infMag with h1 | h1
  · exact h1
  · obtain ⟨B, hB, _, h2⟩ := top_bounds
    have h2 := h2 _ h1
    rw [rawMag_int n h] at h2
    have h3 : n * F64.oneUnits ≤ 2 ^ 53 * F64.oneUnits := Nat.mul_le_mul_right _ (by omega)
    have h4 : F64.oneUnits ≤ F64.oneUnits * 2 ^ 900 := Nat.le_mul_of_pos_right _ (by positivity)
    omega

theorem toI16_ofInt (neg : Bool) (n : Nat) (h : n < 2 ^ 53) :
    (F64.ofMag neg (magOfRat (n * F64.oneUnits) 1)).toI16 =
      BitVec.ofInt 16 (max (-32768) (min 32767 (if neg then -(n : Int) else n))) := by
  have hlt := rawMag_int_lt n h
  rw [magOfRat_of_lt hlt]
  have h63 : rawMag (n * F64.oneUnits) 1 < 2 ^ 63 := by have := infMag_lt; omega
  have hfin := ofMag_isFinite neg hlt
  obtain ⟨h1, h2⟩ := finite_not_nan hfin
  unfold F64.toI16
  simp only [h1, h2, Bool.false_eq_true, if_false]
  rw [ofMag_units neg h63, ofMag_neg neg h63, rawMag_int n h,
    Nat.mul_div_cancel _ oneUnits_pos]

theorem parseF64?_fmtInt (i : Int) :
    parseF64? (fmtInt i) =
      some (F64.ofMag (decide (i < 0)) (magOfRat (i.natAbs * F64.oneUnits) 1)) := by
  unfold parseF64?
  rw [stripSign_fmtInt]
  simp only
  rw [parseDecimal_digits (fmtNat_ne_nil _) (fmtNat_chars _) (digitsVal_fmtNat _)]
  simp

theorem parseI16_pad (w : Nat) (v : I16) (off : Nat) :
    parseI16 (padLeft w ' ' (fmtInt v.toInt)) off = .ok v := by
  unfold parseI16
  rw [trim_padLeft w (fmtInt_no_ws _), parseF64?_fmtInt]
  have hlo := BitVec.le_toInt v
  have hhi := BitVec.toInt_lt (x := v)
  simp only [Nat.reduceSub] at hlo hhi
  have hn : v.toInt.natAbs < 2 ^ 53 := by omega
  simp only
  rw [toI16_ofInt _ _ hn]
  congr 1
  have : max (-32768) (min 32767
      (if decide (v.toInt < 0) = true then -((v.toInt.natAbs : Nat) : Int)
        else (v.toInt.natAbs : Nat))) = v.toInt := by
    split <;> rename_i h <;> rw [decide_eq_true_eq] at h <;> omega
  rw [this]; simp

/-! ### Doubles as text -/

theorem trimZeros_dot (a f : Str) : trimZeros (a ++ '.' :: f) = a ++ '.' :: trimZeros f := by
  unfold trimZeros
  rw [List.reverse_append, List.reverse_cons]
  have : ∀ (l : Str) (r : Str), (l ++ '.' :: r).dropWhile (fun c => decide (c = '0')) =
      l.dropWhile (fun c => decide (c = '0')) ++ '.' :: r := by
    intro l r
    induction l with
    | nil => simp [List.dropWhile_cons]
    | cons c cs ih =>
      simp only [List.cons_append, List.dropWhile_cons]
      split
      · exact ih
      · rfl
  rw [List.append_assoc, List.singleton_append, this]
  simp

theorem trimZeros_append (f : Str) :
    ∃ k, f = trimZeros f ++ List.replicate k '0' := by
  unfold trimZeros
  have : ∀ l : Str, ∃ k, l = List.replicate k '0' ++ l.dropWhile (fun c => decide (c = '0')) := by
    intro l
    induction l with
    | nil => exact ⟨0, rfl⟩
    | cons c cs ih =>
      by_cases hc : c = '0'
      · obtain ⟨k, hk⟩ := ih
        refine ⟨k + 1, ?_⟩
        subst hc
        simp only [List.dropWhile_cons, decide_true, if_true, List.replicate_succ, List.cons_append]
        rw [← hk]
      · exact ⟨0, by simp [List.dropWhile_cons, hc]⟩
  obtain ⟨k, hk⟩ := this f.reverse
  refine ⟨k, ?_⟩
  have := congrArg List.reverse hk
  simpa using this

theorem digitsVal_append {b : Nat} {dig : Char → Option Nat} (l r : Str) (acc : Nat) :
    digitsVal? b dig acc (l ++ r) = (digitsVal? b dig acc l).bind (digitsVal? b dig · r) := by
  induction l generalizing acc with
  | nil => rfl
  | cons c cs ih =>
    simp only [List.cons_append, digitsVal?]
    cases dig c with
    | none => rfl
    | some d => exact ih _

theorem digitsVal_acc {b : Nat} {dig : Char → Option Nat} (l : Str) (acc : Nat) :
    digitsVal? b dig acc l = (digitsVal? b dig 0 l).map (acc * b ^ l.length + ·) := by
  induction l generalizing acc with
  | nil => simp [digitsVal?]
  | cons c cs ih =>
    simp only [digitsVal?, List.length_cons]
    cases dig c with
    | none => rfl
    | some d =>
      simp only
      rw [ih (acc * b + d), ih (0 * b + d)]
      cases digitsVal? b dig 0 cs with
      | none => rfl
      | some v =>
        simp only [Option.map_some, Option.some.injEq]
        ring

theorem digitsVal_repl0 (k acc : Nat) :
    digitsVal? 10 decVal? acc (List.replicate k '0') = some (acc * 10 ^ k) := by
  induction k generalizing acc with
  | zero => simp [digitsVal?]
  | succ k ih =>
    have : decVal? '0' = some 0 := by decide
    simp only [List.replicate_succ, digitsVal?, this, ih]
    congr 1; ring

/-- The integer number of 10^-12 steps printed for a finite double. -/
def dec12 (x : F64) : Nat := roundHalfEven (x.units * 10 ^ 12) F64.oneUnits

/-- The twelve decimals. -/
def frac12 (x : F64) : Str := padLeft 12 '0' (fmtNat (dec12 x % 10 ^ 12))

/-- The fraction digits finally written. -/
def fracText (x : F64) : Str :=
  if trimZeros (frac12 x) = [] then ['0'] else trimZeros (frac12 x)

def signText (x : F64) : Str := if x.neg then str!"-" else []

theorem fmtNat_lt_length {n w : Nat} (hw : 0 < w) (h : n < 10 ^ w) : (fmtNat n).length ≤ w := by
  simpa [fmtNat] using digits_length_le (b := 10) (by omega) hw h

theorem frac12_length (x : F64) : (frac12 x).length = 12 := by
  unfold frac12
  rw [padLeft_length]
  have := fmtNat_lt_length (n := dec12 x % 10 ^ 12) (w := 12) (by omega)
    (Nat.mod_lt _ (by positivity))
  omega

theorem frac12_val (x : F64) : digitsVal? 10 decVal? 0 (frac12 x) = some (dec12 x % 10 ^ 12) := by
  unfold frac12
  rw [padLeft, digitsVal_zeros _ _ _ (by decide), digitsVal_fmtNat]

theorem frac12_chars (x : F64) : ∀ c ∈ frac12 x, 48 ≤ c.toNat ∧ c.toNat ≤ 57 := by
  intro c hc
  simp only [frac12, padLeft, List.mem_append, List.mem_replicate] at hc
  rcases hc with ⟨_, rfl⟩ | hc
  · decide
  · exact fmtNat_chars _ c hc

theorem trimZeros_subset (f : Str) : ∀ c ∈ trimZeros f, c ∈ f := by
  intro c hc
  obtain ⟨k, hk⟩ := trimZeros_append f
  rw [hk]; exact List.mem_append_left _ hc

theorem fracText_chars (x : F64) : ∀ c ∈ fracText x, 48 ≤ c.toNat ∧ c.toNat ≤ 57 := by
  intro c hc
  unfold fracText at hc
  split at hc
  · simp at hc; subst hc; decide
  · exact frac12_chars x c (trimZeros_subset _ c hc)

theorem fracText_ne_nil (x : F64) : fracText x ≠ [] := by
  unfold fracText
  split
  · simp
  · assumption

/-- The written fraction has between 1 and 12 digits and stands for the same value. -/
theorem fracText_val (x : F64) : ∃ v, digitsVal? 10 decVal? 0 (fracText x) = some v ∧
    1 ≤ (fracText x).length ∧ (fracText x).length ≤ 12 ∧
    v * 10 ^ (12 - (fracText x).length) = dec12 x % 10 ^ 12 := by
  obtain ⟨k, hk⟩ := trimZeros_append (frac12 x)
  have hval := frac12_val x
  have hlen := frac12_length x
  unfold fracText
  split
  · rename_i h
    rw [h] at hk
    simp only [List.nil_append] at hk
    rw [hk, digitsVal_repl0] at hval
    refine ⟨0, by decide, by simp, by simp, ?_⟩
    simp at hval
    omega
  · rename_i h
    generalize trimZeros (frac12 x) = t at *
    rw [hk, digitsVal_append] at hval
    rw [hk] at hlen
    simp only [List.length_append, List.length_replicate] at hlen
    cases ht : digitsVal? 10 decVal? 0 t with
    | none => rw [ht] at hval; simp at hval
    | some v =>
      rw [ht] at hval
      simp only [Option.bind_some, digitsVal_repl0, Option.some.injEq] at hval
      refine ⟨v, rfl, ?_, by omega, ?_⟩
      · cases t with
        | nil => exact absurd rfl h
        | cons _ _ => simp
      · rw [show 12 - t.length = k by omega]; exact hval

theorem formatF64_eq {x : F64} (h : x.isFinite = true) :
    formatF64 x = signText x ++ fmtNat (dec12 x / 10 ^ 12) ++ '.' :: fracText x := by
  obtain ⟨h1, h2⟩ := finite_not_nan h
  unfold formatF64 fmtFixed12
  simp only [h1, h2, Bool.false_eq_true, if_false]
  have e : (if x.neg = true then str!"-" else []) ++
      fmtNat (roundHalfEven (x.units * 10 ^ 12) F64.oneUnits / 10 ^ 12) ++
      '.' :: padLeft 12 '0' (fmtNat (roundHalfEven (x.units * 10 ^ 12) F64.oneUnits % 10 ^ 12)) =
      (signText x ++ fmtNat (dec12 x / 10 ^ 12)) ++ '.' :: frac12 x := rfl
  rw [e, trimZeros_dot]
  unfold fracText
  cases ht : trimZeros (frac12 x) with
  | nil => simp
  | cons c cs =>
    have : ((signText x ++ fmtNat (dec12 x / 10 ^ 12)) ++ '.' :: c :: cs).getLast? ≠ some '.' := by
      rw [List.getLast?_append, List.getLast?_cons_cons]
      intro hl
      have hl : (c :: cs).getLast? = some '.' := by
        cases hcs : (c :: cs).getLast? with
        | none => simp at hcs
        | some d => rw [hcs] at hl; simpa using hl
      have hmem : '.' ∈ (c :: cs) := List.mem_of_getLast? hl
      rw [← ht] at hmem
      have := frac12_chars x _ (trimZeros_subset _ _ hmem)
      revert this; decide
    rw [if_neg this, if_neg (by simp)]

attribute [irreducible] dec12

theorem stripSign_signed (b : Bool) (n : Nat) (f : Str) :
    stripSign ((if b then str!"-" else []) ++ fmtNat n ++ '.' :: f) =
      (b, fmtNat n ++ '.' :: f) := by
  cases b
  · simp only [Bool.false_eq_true, if_false, List.nil_append]
    exact stripSign_digits (fmtNat_ne_nil _) (fmtNat_chars _) _
  · simp [stripSign]

theorem stripSign_format {x : F64} (h : x.isFinite = true) :
    stripSign (formatF64 x) = (x.neg, fmtNat (dec12 x / 10 ^ 12) ++ '.' :: fracText x) := by
  rw [formatF64_eq h, signText, stripSign_signed]

theorem parse_signed (b : Bool) (n v L D T : Nat) (f : Str)
    (hf : ∀ c ∈ f, 48 ≤ c.toNat ∧ c.toNat ≤ 57)
    (hv : digitsVal? 10 decVal? 0 f = some v) (hL : f.length = L) (hL1 : 1 ≤ L)
    (hT : ∃ k, T = 10 ^ k * 10 ^ L ∧ D = n * T + v * 10 ^ k) {s : Str}
    (hs : stripSign s = (b, fmtNat n ++ '.' :: f)) :
    parseF64? s = some (F64.ofMag b (magOfRat (D * F64.oneUnits) T)) := by
  have hval : digitsVal? 10 decVal? 0 (fmtNat n ++ f) = some (n * 10 ^ L + v) := by
    rw [digitsVal_append, digitsVal_fmtNat, Option.bind_some, digitsVal_acc, hv, hL,
      Option.map_some]
  have hp := parseDecimal_frac (fmtNat_ne_nil n) (fmtNat_chars n) hf hval
  rw [hL] at hp
  unfold parseF64?
  rw [hs]
  simp only
  rw [hp]
  simp only
  rw [if_neg (by omega)]
  have : (-(-(L : Int))).toNat = L := by omega
  rw [this]
  obtain ⟨k, h1, h2⟩ := hT
  rw [← magOfRat_scale _ (10 ^ L) (10 ^ k) (by positivity), h1, h2, h1]
  refine congrArg (fun m => some (F64.ofMag b m)) ?_
  congr 1
  ring

/-- Parsing the written text of a finite double is the correctly rounded conversion of the
twelve-decimal value. -/
theorem parse_format_eq {x : F64} (h : x.isFinite = true) :
    parseF64? (formatF64 x) = some (F64.ofMag x.neg (magOfRat (dec12 x * F64.oneUnits) (10 ^ 12))) := by
  obtain ⟨v, hv, hl1, hl2, hvv⟩ := fracText_val x
  refine parse_signed _ _ v _ _ _ _ (fracText_chars x) hv rfl hl1
    ⟨12 - (fracText x).length, ?_, ?_⟩ (stripSign_format h)
  · rw [← Nat.pow_add]; congr 1; omega
  · rw [hvv, Nat.div_add_mod']

/-- The double read back, when finite, in terms of its bits before clipping. -/
theorem reread_lt {x : F64} (h : x.isFinite = true) :
    rawMag (dec12 x * F64.oneUnits) (10 ^ 12) < F64.infMag := by
  rcases Nat.lt_or_ge (rawMag (dec12 x * F64.oneUnits) (10 ^ 12)) F64.infMag with h1 | h1
  · exact h1
  · obtain ⟨B, hB, h3, h2⟩ := top_bounds
    have h2 := h2 _ h1
    have h3 := h3 _ (mag_lt_of_finite h)
    have hn := rawMag_nearest (dec12 x * F64.oneUnits) (q := 10 ^ 12) (by positivity) x.mag
    have hs := (roundHalfEven_spec (x.units * 10 ^ 12) oneUnits_pos).1
    have hd : dec12 x = roundHalfEven (x.units * 10 ^ 12) F64.oneUnits := by unfold dec12; rfl
    rw [← hd] at hs
    rw [units_eq] at hs
    have h4 : F64.oneUnits ≤ F64.oneUnits * 2 ^ 900 := Nat.le_mul_of_pos_right _ (by positivity)
    generalize F64.unitsOf (rawMag (dec12 x * F64.oneUnits) (10 ^ 12)) = K at *
    generalize F64.unitsOf x.mag = k at *
    generalize dec12 x * F64.oneUnits = A at *
    unfold ndist at *
    omega

/-- The value read back from the text of `x`. -/
def reread (x : F64) : F64 := F64.ofMag x.neg (rawMag (dec12 x * F64.oneUnits) (10 ^ 12))

theorem parse_format_reread {x : F64} (h : x.isFinite = true) :
    parseF64? (formatF64 x) = some (reread x) := by
  rw [parse_format_eq h, magOfRat_of_lt (reread_lt h)]; rfl

theorem reread_finite {x : F64} (h : x.isFinite = true) : (reread x).isFinite = true :=
  ofMag_isFinite _ (reread_lt h)

theorem reread_neg {x : F64} (h : x.isFinite = true) : (reread x).neg = x.neg :=
  ofMag_neg _ (by have := reread_lt h; have := infMag_lt; omega)

theorem reread_units {x : F64} (h : x.isFinite = true) :
    (reread x).units = F64.unitsOf (rawMag (dec12 x * F64.oneUnits) (10 ^ 12)) :=
  ofMag_units _ (by have := reread_lt h; have := infMag_lt; omega)

theorem dec12_spec (x : F64) :
    2 * ndist (dec12 x * F64.oneUnits) (x.units * 10 ^ 12) ≤ F64.oneUnits ∧
    (2 * ndist (dec12 x * F64.oneUnits) (x.units * 10 ^ 12) = F64.oneUnits → dec12 x % 2 = 0) := by
  have hd : dec12 x = roundHalfEven (x.units * 10 ^ 12) F64.oneUnits := by unfold dec12; rfl
  rw [hd]
  exact roundHalfEven_spec _ oneUnits_pos

theorem reread_nearest {x : F64} (h : x.isFinite = true) :
    ndist ((reread x).units * 10 ^ 12) (dec12 x * F64.oneUnits) ≤
      ndist (x.units * 10 ^ 12) (dec12 x * F64.oneUnits) := by
  rw [reread_units h, units_eq]
  exact rawMag_nearest _ (by positivity) _

theorem ndist_comm (a b : Nat) : ndist a b = ndist b a := by unfold ndist; omega

theorem ndist_tri (a b c : Nat) : ndist a c ≤ ndist a b + ndist b c := by unfold ndist; omega

theorem ndist_eq_zero {a b : Nat} (h : ndist a b = 0) : a = b := by unfold ndist at h; omega

theorem ndist_self (a : Nat) : ndist a a = 0 := by unfold ndist; omega

theorem ndist_mul_right (a b k : Nat) : ndist a b * k = ndist (a * k) (b * k) := by
  unfold ndist; rw [Nat.add_mul, Nat.sub_mul, Nat.sub_mul]

theorem round_closer {A C D U d : Nat} (hU : 0 < U) (hn : ndist A D ≤ ndist C D)
    (hs : 2 * ndist D C ≤ U ∧ (2 * ndist D C = U → d % 2 = 0)) (hD : D = d * U) :
    roundHalfEven A U = d := by
  rw [ndist_comm A, ndist_comm C] at hn
  apply roundHalfEven_unique hU
  · rw [← hD]; omega
  · intro heq
    apply hs.2
    rw [← hD] at heq; omega

theorem dec12_reread {x : F64} (h : x.isFinite = true) : dec12 (reread x) = dec12 x := by
  have hd : dec12 (reread x) = roundHalfEven ((reread x).units * 10 ^ 12) F64.oneUnits := by
    unfold dec12; rfl
  rw [hd]
  exact round_closer oneUnits_pos (reread_nearest h) (dec12_spec x) rfl

/-- Text stability. -/
theorem format_reread {x : F64} (h : x.isFinite = true) :
    formatF64 (reread x) = formatF64 x := by
  rw [formatF64_eq h, formatF64_eq (reread_finite h)]
  unfold fracText frac12 signText
  rw [dec12_reread h, reread_neg h]

theorem reread_eq_of_units {x : F64} (h : x.isFinite = true) (hu : (reread x).units = x.units) :
    reread x = x := by
  rw [reread_units h, units_eq] at hu
  have := unitsOf_inj hu
  unfold reread
  rw [this, ofMag_neg_mag]

theorem ndist_closer {A C D U : Nat} (hn : ndist A D ≤ ndist C D) (hs : 2 * ndist D C ≤ U) :
    ndist A C ≤ U := by
  have := ndist_tri A D C
  rw [ndist_comm C] at hn
  omega

theorem reread_error {x : F64} (h : x.isFinite = true) :
    ndist (reread x).units x.units * 10 ^ 12 ≤ F64.oneUnits := by
  rw [ndist_mul_right]
  exact ndist_closer (reread_nearest h) (dec12_spec x).1

/-- Multiples of `2^-12` are exact. -/
theorem reread_exact_of_dvd {x : F64} (h : x.isFinite = true) {n : Nat}
    (hd : x.units * 2 ^ 12 = n * F64.oneUnits) : reread x = x := by
  apply reread_eq_of_units h
  have e : x.units * 10 ^ 12 = (n * 5 ^ 12) * F64.oneUnits := by
    calc x.units * 10 ^ 12 = (x.units * 2 ^ 12) * 5 ^ 12 := by ring
      _ = _ := by rw [hd]; ring
  have e2 : dec12 x * F64.oneUnits = x.units * 10 ^ 12 := by
    unfold dec12
    rw [e, roundHalfEven_exact _ oneUnits_pos]
  have hn := reread_nearest h
  rw [e2] at hn
  have : (reread x).units * 10 ^ 12 = x.units * 10 ^ 12 :=
    ndist_eq_zero (Nat.le_zero.mp (Nat.le_trans hn (Nat.le_of_eq (ndist_self _))))
  exact Nat.eq_of_mul_eq_mul_right (by positivity) this

/-- A magnitude of at least `2^(52+s)` units is a multiple of `2^s`. -/
theorem unitsOf_dvd {m s : Nat} (h : 2 ^ 52 * 2 ^ s ≤ F64.unitsOf m) : 2 ^ s ∣ F64.unitsOf m := by
  rcases unitsOf_cases m s with ⟨n, hn⟩ | h1
  · exact ⟨n, by rw [hn]; ring⟩
  · have : F64.unitsOf m = 2 ^ 52 * 2 ^ s := by omega
    exact ⟨2 ^ 52, by rw [this]; ring⟩

/-- Values of magnitude at least `2^13` are exact. -/
theorem reread_exact_of_ge {x : F64} (h : x.isFinite = true)
    (hg : 2 ^ 13 * F64.oneUnits ≤ x.units) : reread x = x := by
  have herr := reread_error h
  by_cases hex : x.units = 2 ^ 13 * F64.oneUnits
  · exact reread_exact_of_dvd h (n := 2 ^ 25) (by rw [hex]; ring)
  obtain ⟨s, hs, _⟩ := oneUnits_pow
  have hV : F64.oneUnits = 2 ^ 39 * 2 ^ s := by rw [hs]; ring
  have hk : 2 ^ s ∣ x.units := by
    rw [units_eq] at *
    apply unitsOf_dvd
    calc 2 ^ 52 * 2 ^ s = 2 ^ 13 * F64.oneUnits := by rw [hV]; ring
      _ ≤ _ := hg
  have hd : ndist (reread x).units x.units < 2 ^ s := by
    by_contra hc
    have hc : 2 ^ s ≤ ndist (reread x).units x.units := by omega
    have h1 : 2 ^ s * 10 ^ 12 ≤ ndist (reread x).units x.units * 10 ^ 12 :=
      Nat.mul_le_mul_right _ hc
    have hp : 0 < 2 ^ s := by positivity
    omega
  apply reread_eq_of_units h
  obtain ⟨a, ha⟩ := hk
  have hgt : 2 ^ s * (2 ^ 52 + 1) ≤ x.units := by
    have e : 2 ^ 13 * F64.oneUnits = 2 ^ s * 2 ^ 52 := by rw [hV]; ring
    rw [ha] at hg hex ⊢
    rw [e] at hg hex
    have h1 : 2 ^ 52 ≤ a := Nat.le_of_mul_le_mul_left hg (by positivity)
    have h2 : a ≠ 2 ^ 52 := by intro h'; exact hex (by rw [h'])
    exact Nat.mul_le_mul_left _ (by omega)
  have hK : 2 ^ 52 * 2 ^ s ≤ (reread x).units := by
    have : 2 ^ s * (2 ^ 52 + 1) = 2 ^ 52 * 2 ^ s + 2 ^ s := by ring
    unfold ndist at hd; omega
  have hdK : 2 ^ s ∣ (reread x).units := by
    rw [units_eq] at *
    exact unitsOf_dvd hK
  obtain ⟨b, hb⟩ := hdK
  rw [ha, hb] at hd ⊢
  congr 1
  have : ndist (2 ^ s * b) (2 ^ s * a) = 2 ^ s * ndist b a := by
    unfold ndist; rw [Nat.mul_add, Nat.mul_sub, Nat.mul_sub]
  rw [this] at hd
  have : ndist b a < 1 := by
    by_contra hc
    have hc : 1 ≤ ndist b a := by omega
    have := Nat.mul_le_mul_left (2 ^ s) hc
    omega
  unfold ndist at this; omega

theorem format_chars {x : F64} (h : x.isFinite = true) :
    ∀ c ∈ formatF64 x, 45 ≤ c.toNat ∧ c.toNat ≤ 57 := by
  rw [formatF64_eq h]
  intro c hc
  simp only [List.mem_append, List.mem_cons] at hc
  rcases hc with (hc | hc) | rfl | hc
  · unfold signText at hc
    split at hc
    · simp at hc; subst hc; decide
    · simp at hc
  · have := fmtNat_chars _ c hc; omega
  · decide
  · have := fracText_chars x c hc; omega

theorem parseF64_format {x : F64} (h : x.isFinite = true) (off : Nat) :
    parseF64 (formatF64 x) off = .ok (reread x) := by
  unfold parseF64
  rw [trim_self, parse_format_reread h]
  intro c hc
  have := format_chars h c hc
  exact isWs_low (by omega)

end Dxf
