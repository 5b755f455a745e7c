import Verif.Lemmas.Safe
import Verif.Lemmas.FloatOps

/-! Numbers of days for which there is a date. -/

namespace Dxf

/-- Rounding does not exceed a whole number. -/
theorem magOfRat_le_int (p : Nat) {q : Nat} (hq : 0 < q) (n : Nat) (hn : n < 2 ^ 53)
    (h : p ≤ n * F64.oneUnits * q) :
    magOfRat p q < F64.infMag ∧ F64.unitsOf (magOfRat p q) ≤ n * F64.oneUnits := by
  have h1 := rawMag_nearest p hq (rawMag (n * F64.oneUnits) 1)
  rw [rawMag_int n hn] at h1
  have h2 : F64.unitsOf (rawMag p q) ≤ n * F64.oneUnits := by
    unfold ndist at h1
    have : F64.unitsOf (rawMag p q) * q ≤ n * F64.oneUnits * q := by omega
    exact Nat.le_of_mul_le_mul_right this hq
  have h3 : rawMag p q < F64.infMag := by
    have h4 := rawMag_int_lt n hn
    by_contra hc
    have h5 : rawMag (n * F64.oneUnits) 1 < rawMag p q := by omega
    have h6 := unitsOf_strictMono h5
    rw [rawMag_int n hn] at h6
    omega
  rw [magOfRat_of_lt h3]
  exact ⟨h3, h2⟩

/-- Finite, and between two whole numbers. -/
def Between (f : F64) (a b : Nat) : Prop :=
  f.isFinite = true ∧ f.units ≤ (if f.neg then a else b) * F64.oneUnits

theorem ofMag_between (n : Bool) (p : Nat) {q : Nat} (hq : 0 < q) (c : Nat) (hc : c < 2 ^ 53)
    (h : p ≤ c * F64.oneUnits * q) {a b : Nat} (hab : (if n then a else b) = c) :
    Between (F64.ofMag n (magOfRat p q)) a b := by
  obtain ⟨h1, h2⟩ := magOfRat_le_int p hq c hc h
  have h3 : magOfRat p q < 2 ^ 63 := by have := infMag_lt; omega
  exact ⟨ofMag_isFinite _ h1, by rw [ofMag_units _ h3, ofMag_neg _ h3, hab]; exact h2⟩

theorem ofMag_between_one (n : Bool) (p : Nat) (c : Nat) (hc : c < 2 ^ 53) (C : Nat)
    (hC : c * F64.oneUnits = C) (h : p ≤ C) {a b : Nat} (hab : (if n then a else b) = c) :
    Between (F64.ofMag n (magOfRat p 1)) a b :=
  ofMag_between n p (by omega) c hc (by rw [Nat.mul_one, hC]; exact h) hab

theorem negate_spec (x : F64) (h : x.isFinite = true) :
    x.negate.isFinite = true ∧ x.negate.sunits = -x.sunits := by
  have hm : x.bits.toNat % 2 ^ 63 = x.mag := rfl
  have h1 := mag_lt_of_finite h
  have h2 := mag_lt x
  unfold F64.negate
  rw [hm]
  refine ⟨ofMag_isFinite _ h1, ?_⟩
  unfold F64.sunits
  rw [ofMag_neg _ h2, ofMag_units _ h2, ← units_eq]
  cases x.neg <;> simp

theorem Between.sunits {f : F64} {a b : Nat} (h : Between f a b) :
    -((a * F64.oneUnits : Nat) : Int) ≤ f.sunits ∧ f.sunits ≤ ((b * F64.oneUnits : Nat) : Int) := by
  have h2 := h.2
  unfold F64.sunits
  cases hn : f.neg
  · simp only [hn, Bool.false_eq_true, if_false] at h2 ⊢
    omega
  · simp only [hn, if_true] at h2 ⊢
    omega

theorem abs_le_of {x : Int} {A B N : Nat} (h : x + -(N : Int) < 0)
    (hu : -(A : Int) ≤ x ∧ x ≤ (B : Int)) : (x + -(N : Int)).natAbs ≤ A + N := by omega

theorem abs_le_of' {x : Int} {A B N : Nat} (h : ¬ x + -(N : Int) < 0)
    (hu : -(A : Int) ≤ x ∧ x ≤ (B : Int)) : (x + -(N : Int)).natAbs ≤ B - N := by omega

theorem Between.sub_int {f : F64} {a b : Nat} (h : Between f a b) (n : Nat) (hn : n < 2 ^ 53)
    (ha : a + n < 2 ^ 53) (hb : b < 2 ^ 53) (hnb : n ≤ b) :
    Between (f.sub (F64.ofInt n)) (a + n) (b - n) := by
  obtain ⟨i1, i2, i3⟩ := ofInt_spec (n : Int) (by simpa using hn)
  obtain ⟨g1, g2⟩ := negate_spec _ i1
  have hs : (F64.ofInt (n : Int)).sunits = ((n * F64.oneUnits : Nat) : Int) := by
    unfold F64.sunits
    rw [i2, i3]
    simp
  rw [hs] at g2
  obtain ⟨f1, f2⟩ := finite_not_nan h.1
  obtain ⟨k1, k2⟩ := finite_not_nan g1
  have hu := h.sunits
  unfold F64.sub F64.add
  rw [f1, f2, k1, k2]
  simp only [Bool.or_self, Bool.false_eq_true, if_false]
  rw [g2]
  have e1 : ((a + n) * F64.oneUnits : Nat) = a * F64.oneUnits + n * F64.oneUnits := Nat.add_mul _ _ _
  have e2 : ((b - n) * F64.oneUnits : Nat) = b * F64.oneUnits - n * F64.oneUnits := Nat.sub_mul _ _ _
  have e3 : n * F64.oneUnits ≤ b * F64.oneUnits := Nat.mul_le_mul_right _ hnb
  generalize a * F64.oneUnits = A at *
  generalize b * F64.oneUnits = B at *
  generalize n * F64.oneUnits = N at *
  split
  · have hz : magOfRat 0 1 = 0 := by decide +kernel
    have := ofMag_between (f.neg && (F64.ofInt (n : Int)).negate.neg) 0 (q := 1) (by omega)
      (if (f.neg && (F64.ofInt (n : Int)).negate.neg) then a + n else b - n) (by split <;> omega)
      (by omega) (a := a + n) (b := b - n) rfl
    rwa [hz] at this
  · rename_i hne
    by_cases hlt : f.sunits + -(N : Int) < 0
    · simp only [hlt, decide_true]
      exact ofMag_between_one true _ (a + n) ha _ e1 (abs_le_of hlt hu) rfl
    · simp only [hlt, decide_false]
      exact ofMag_between_one false _ (b - n) (by omega) _ e2 (abs_le_of' hlt hu) rfl

theorem Between.mul_int {f : F64} {a b : Nat} (h : Between f a b) (n : Nat) (hn : n < 2 ^ 53)
    (ha : a * n < 2 ^ 53) (hb : b * n < 2 ^ 53) :
    Between (f.mul (F64.ofInt n)) (a * n) (b * n) := by
  obtain ⟨i1, i2, i3⟩ := ofInt_spec (n : Int) (by simpa using hn)
  obtain ⟨f1, f2⟩ := finite_not_nan h.1
  obtain ⟨k1, k2⟩ := finite_not_nan i1
  have hneg : (f.neg != (F64.ofInt (n : Int)).neg) = f.neg := by 
    have : ¬ ((n : Int) < 0) := by omega
    rw [i2, decide_eq_false this]; cases f.neg <;> rfl
  unfold F64.mul
  rw [f1, f2, k1, k2]
  simp only [Bool.or_self, Bool.false_eq_true, if_false]
  rw [hneg, i3, Int.natAbs_natCast]
  have h2 := h.2
  refine ofMag_between f.neg _ oneUnits_pos (if f.neg then a * n else b * n) (by split <;> omega) ?_
    rfl
  calc f.units * (n * F64.oneUnits) = f.units * n * F64.oneUnits := by ring
    _ ≤ ((if f.neg then a else b) * F64.oneUnits) * n * F64.oneUnits :=
        Nat.mul_le_mul_right _ (Nat.mul_le_mul_right _ h2)
    _ = (if f.neg then a * n else b * n) * F64.oneUnits * F64.oneUnits := by split <;> ring

theorem Between.toInt {f : F64} {a b : Nat} (h : Between f a b) (ha : a < 2 ^ 53)
    (hb : b < 2 ^ 53) :
    -(a : Int) ≤ f.toIntSat (-2 ^ 63) (2 ^ 63 - 1) ∧ f.toIntSat (-2 ^ 63) (2 ^ 63 - 1) ≤ b := by
  obtain ⟨f1, f2⟩ := finite_not_nan h.1
  have h2 := h.2
  have key : f.units / F64.oneUnits ≤ if f.neg then a else b := by
    rw [← Nat.mul_div_cancel (if f.neg = true then a else b) oneUnits_pos]
    exact Nat.div_le_div_right h2
  unfold F64.toIntSat F64.trunc
  rw [f1, f2]
  simp only [Bool.false_eq_true, if_false]
  generalize f.units / F64.oneUnits = u at key ⊢
  cases hn : f.neg
  · simp only [hn, Bool.false_eq_true, if_false] at key ⊢
    omega
  · simp only [hn, if_true] at key ⊢
    omega

theorem date_ok {f : F64} (a b : Nat) (ha : a ≤ 2 ^ 31) (hb : b ≤ 97466824) (hb' : 2415020 ≤ b)
    (h : Between f a b) : ∃ d, Date.ofDouble f = .ok d ∧
      (show Int from d) ≤ (((b : Int) - 2415020) * 86400) * 1000000000 := by
  unfold Date.ofDouble
  split
  · refine ⟨0, rfl, ?_⟩
    show (0 : Int) ≤ _
    omega
  · dsimp only
    have h1 := (h.sub_int 2415020 (by omega) (by omega) (by omega) hb').mul_int 86400 (by omega)
      (by omega) (by omega)
    obtain ⟨h2, h3⟩ := h1.toInt (by omega) (by omega)
    change _ ≤ F64.toIntSat _ _ ((f.sub (F64.ofInt 2415020)).mul (F64.ofInt 86400)) at h2
    change F64.toIntSat _ _ ((f.sub (F64.ofInt 2415020)).mul (F64.ofInt 86400)) ≤ _ at h3
    generalize F64.toIntSat _ _ ((f.sub (F64.ofInt 2415020)).mul (F64.ofInt 86400)) = x at h2 h3 ⊢
    have hM : Date.maxSecs = 95051804 * 86400 - 1 := rfl
    rw [if_neg (by omega), if_neg (by omega)]
    split
    · rw [if_neg (by omega)]
      refine ⟨_, rfl, ?_⟩
      show (x - 86400 + 1) * 1000000000 ≤ _
      omega
    · refine ⟨_, rfl, ?_⟩
      show (0 : Int) ≤ _
      omega

theorem date_sane {f : F64} (h : DayNumber f) : Sane (Date.ofDouble f) := by
  by_cases hf : f.isFinite = true
  · have hb : Between f 97466824 97466824 := by
      refine ⟨hf, ?_⟩
      have := h.2 hf
      unfold F64.sunits at this
      cases hn : f.neg <;> simp only [hn, Bool.false_eq_true, if_false, if_true] at this ⊢ <;> omega
    obtain ⟨d, hd, -⟩ := date_ok 97466824 97466824 (by omega) (by omega) (by omega) hb
    rw [hd]
    exact Sane.ok
  · have hn : f.isNan = true := by
      have h1 := h.1
      unfold F64.isNan
      unfold F64.isFinite at hf
      unfold F64.isInf at h1
      by_cases h5 : f.expField = 2047
      · by_cases h6 : f.fracField = 0
        · simp [h5, h6] at h1
        · simp [h5, h6]
      · simp [h5] at hf
    have hx : ((f.sub (F64.ofInt 2415020)).mul (F64.ofInt 86400)).isNan = true := by
      have h1 : f.sub (F64.ofInt 2415020) = F64.nan := by
        unfold F64.sub F64.add
        rw [hn]
        rfl
      have h2 : F64.nan.isNan = true := by decide +kernel
      have h3 : F64.nan.mul (F64.ofInt 86400) = F64.nan := by
        unfold F64.mul
        rw [h2]
        rfl
      rw [h1, h3, h2]
    unfold Date.ofDouble
    simp only [F64.toIntSat, hx, if_true]
    have : (f.isFinite && decide (f.units = 0)) = false := by simp [hf]
    rw [this]
    simp [Sane]

theorem date_int {n : Int} (h0 : -2 ^ 31 ≤ n) (h : n ≤ lastSunDay) :
    ∃ d, Date.ofDouble (F64.ofInt n) = .ok d ∧
      (show Int from d) ≤ 94584980 * 86400 * 1000000000 := by
  obtain ⟨i1, i2, i3⟩ := ofInt_spec n (by unfold lastSunDay at h; omega)
  have hb : Between (F64.ofInt n) (2 ^ 31) 97000000 := by
    refine ⟨i1, ?_⟩
    rw [i3, i2]
    refine Nat.mul_le_mul_right _ ?_
    unfold lastSunDay at h
    by_cases hn : n < 0
    · simp only [hn, decide_true, if_true]; omega
    · simp only [hn, decide_false, Bool.false_eq_true, if_false]; omega
  exact date_ok (2 ^ 31) 97000000 (by omega) (by omega) (by omega) hb

end Dxf
