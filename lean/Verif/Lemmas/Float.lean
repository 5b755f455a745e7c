import Verif.Model.Num
import Verif.Lemmas.Escape
import Mathlib.Tactic.Ring
import Mathlib.Tactic.Linarith

/-! Rounding lemmas for the double conversions. -/

namespace Dxf

/-- Distance of two naturals. -/
def ndist (a b : Nat) : Nat := (a - b) + (b - a)

/-! ### `roundHalfEven` -/

theorem roundHalfEven_spec (p : Nat) {q : Nat} (hq : 0 < q) :
    2 * ndist (roundHalfEven p q * q) p ≤ q ∧
    (2 * ndist (roundHalfEven p q * q) p = q → roundHalfEven p q % 2 = 0) := by
  have hdm := Nat.div_add_mod p q
  have hm := Nat.mod_lt p hq
  have h1 : (p / q) * q = q * (p / q) := Nat.mul_comm _ _
  have h2 : (p / q + 1) * q = q * (p / q) + q := by ring
  unfold roundHalfEven ndist
  simp only
  generalize q * (p / q) = A at *
  split
  · rw [h1]; omega
  · split
    · rw [h2]; omega
    · split
      · rw [h1]; omega
      · rw [h2]; omega

theorem roundHalfEven_unique {p q n : Nat} (hq : 0 < q)
    (h1 : 2 * ndist (n * q) p ≤ q) (h2 : 2 * ndist (n * q) p = q → n % 2 = 0) :
    roundHalfEven p q = n := by
  have hs := roundHalfEven_spec p hq
  generalize roundHalfEven p q = r at *
  unfold ndist at *
  rcases Nat.lt_trichotomy r n with h | h | h
  · obtain ⟨t, rfl⟩ := Nat.exists_eq_add_of_lt h
    have : (r + t + 1) * q = r * q + t * q + q := by ring
    rw [this] at h1 h2
    rcases Nat.eq_zero_or_pos t with rfl | ht
    · simp only [Nat.zero_mul, Nat.add_zero] at *
      omega
    · have : q ≤ t * q := Nat.le_mul_of_pos_left q ht
      omega
  · exact h
  · obtain ⟨t, rfl⟩ := Nat.exists_eq_add_of_lt h
    have : (n + t + 1) * q = n * q + t * q + q := by ring
    rw [this] at hs
    rcases Nat.eq_zero_or_pos t with rfl | ht
    · simp only [Nat.zero_mul, Nat.add_zero] at *
      omega
    · have : q ≤ t * q := Nat.le_mul_of_pos_left q ht
      omega

/-- The rounded multiple is at least as close as any other multiple. -/
theorem roundHalfEven_nearest (p : Nat) {q : Nat} (hq : 0 < q) (n : Nat) :
    ndist (roundHalfEven p q * q) p ≤ ndist (n * q) p := by
  have hs := (roundHalfEven_spec p hq).1
  generalize roundHalfEven p q = r at *
  unfold ndist at *
  rcases Nat.lt_trichotomy r n with h | h | h
  · obtain ⟨t, rfl⟩ := Nat.exists_eq_add_of_lt h
    have : (r + t + 1) * q = r * q + t * q + q := by ring
    rw [this]; omega
  · subst h; omega
  · obtain ⟨t, rfl⟩ := Nat.exists_eq_add_of_lt h
    have : (n + t + 1) * q = n * q + t * q + q := by ring
    rw [this] at hs ⊢; omega

theorem roundHalfEven_scale (p q c : Nat) (hc : 0 < c) :
    roundHalfEven (c * p) (c * q) = roundHalfEven p q := by
  unfold roundHalfEven
  simp only [Nat.mul_div_mul_left _ _ hc, Nat.mul_mod_mul_left]
  have e1 : (2 * (c * (p % q)) < c * q) ↔ (2 * (p % q) < q) := by
    rw [show 2 * (c * (p % q)) = c * (2 * (p % q)) by ring]
    exact Nat.mul_lt_mul_left hc
  have e2 : (c * q < 2 * (c * (p % q))) ↔ (q < 2 * (p % q)) := by
    rw [show 2 * (c * (p % q)) = c * (2 * (p % q)) by ring]
    exact Nat.mul_lt_mul_left hc
  simp only [e1, e2]

theorem roundHalfEven_exact (n : Nat) {q : Nat} (hq : 0 < q) : roundHalfEven (n * q) q = n := by
  apply roundHalfEven_unique hq <;> simp [ndist]
  omega

/-! ### Doubles -/

theorem unitsOf_compose {s R : Nat} (hR : R ≤ 2 ^ 53) (hs : 0 < s → 2 ^ 52 ≤ R) :
    F64.unitsOf (s * 2 ^ 52 + R) = R * 2 ^ s := by
  unfold F64.unitsOf
  rcases Nat.lt_or_ge R (2 ^ 52) with h | h
  · have : s = 0 := by
      rcases Nat.eq_zero_or_pos s with h0 | h0
      · exact h0
      · have := hs h0; omega
    subst this
    have e1 : (0 * 2 ^ 52 + R) / 2 ^ 52 = 0 := by omega
    have e2 : (0 * 2 ^ 52 + R) % 2 ^ 52 = R := by omega
    rw [if_pos e1, e2]; simp
  · rcases Nat.lt_or_ge R (2 ^ 53) with h' | h'
    · have e1 : (s * 2 ^ 52 + R) / 2 ^ 52 = s + 1 := by omega
      have e2 : (s * 2 ^ 52 + R) % 2 ^ 52 = R - 2 ^ 52 := by omega
      rw [e1, e2, if_neg (by omega)]
      rw [show R - 2 ^ 52 + 2 ^ 52 = R by omega]
      simp
    · have hR' : R = 2 ^ 53 := by omega
      subst hR'
      have e1 : (s * 2 ^ 52 + 2 ^ 53) / 2 ^ 52 = s + 2 := by omega
      have e2 : (s * 2 ^ 52 + 2 ^ 53) % 2 ^ 52 = 0 := by omega
      rw [e1, e2, if_neg (by omega)]
      rw [show s + 2 - 1 = s + 1 by omega, Nat.pow_succ]
      ring

/-- Every magnitude is either a multiple of `2^s` or below `2^(52+s)`. -/
theorem unitsOf_cases (m s : Nat) :
    (∃ n, F64.unitsOf m = n * 2 ^ s) ∨ F64.unitsOf m ≤ 2 ^ 52 * 2 ^ s := by
  unfold F64.unitsOf
  have hm := Nat.mod_lt m (show 0 < 2 ^ 52 by omega)
  split
  · right
    calc m % 2 ^ 52 ≤ 2 ^ 52 * 1 := by omega
      _ ≤ _ := Nat.mul_le_mul_left _ (Nat.pos_of_ne_zero (by positivity))
  · rename_i h
    rcases Nat.lt_or_ge (m / 2 ^ 52 - 1) s with h1 | h1
    · right
      have : s = (m / 2 ^ 52 - 1) + (s - (m / 2 ^ 52 - 1) - 1) + 1 := by omega
      generalize hE : m / 2 ^ 52 - 1 = E at *
      generalize s - E - 1 = d at *
      subst this
      have h2 : m % 2 ^ 52 + 2 ^ 52 ≤ 2 ^ 53 := by omega
      calc (m % 2 ^ 52 + 2 ^ 52) * 2 ^ E ≤ 2 ^ 53 * 2 ^ E := Nat.mul_le_mul_right _ h2
        _ ≤ (2 ^ 53 * 2 ^ E) * 2 ^ d := Nat.le_mul_of_pos_right _ (by positivity)
        _ = 2 ^ 52 * 2 ^ (E + d + 1) := by ring
    · left
      refine ⟨(m % 2 ^ 52 + 2 ^ 52) * 2 ^ (m / 2 ^ 52 - 1 - s), ?_⟩
      rw [Nat.mul_assoc, ← Nat.pow_add]
      congr 2
      omega

/-- The exponent used by `magOfRat`. -/
def ratExp (p q : Nat) : Nat := (p / q).log2 + 1 - 53

theorem ratExp_lt (p : Nat) {q : Nat} (hq : 0 < q) : p < q * 2 ^ (ratExp p q + 53) := by
  unfold ratExp
  have h1 : p / q < 2 ^ ((p / q).log2 + 1) := Nat.lt_log2_self
  have h2 : 2 ^ ((p / q).log2 + 1) ≤ 2 ^ ((p / q).log2 + 1 - 53 + 53) :=
    Nat.pow_le_pow_right (by omega) (by omega)
  have h3 : p / q < 2 ^ ((p / q).log2 + 1 - 53 + 53) := by omega
  rw [Nat.div_lt_iff_lt_mul hq] at h3
  rw [Nat.mul_comm]; exact h3

theorem ratExp_ge (p : Nat) {q : Nat} (h : 0 < ratExp p q) :
    q * 2 ^ (ratExp p q + 52) ≤ p := by
  unfold ratExp at *
  have h0 : p / q ≠ 0 := by
    intro h0; rw [h0] at h; simp at h
  have h1 : 2 ^ (p / q).log2 ≤ p / q := Nat.log2_self_le h0
  have h2 : (p / q).log2 + 1 - 53 + 52 = (p / q).log2 := by omega
  rw [h2]
  calc q * 2 ^ (p / q).log2 ≤ q * (p / q) := Nat.mul_le_mul_left _ h1
    _ ≤ p := Nat.mul_div_le p q

/-- The rounded significand. -/
def ratSig (p q : Nat) : Nat := roundHalfEven p (q * 2 ^ ratExp p q)

theorem magOfRat_eq (p q : Nat) :
    magOfRat p q = min (ratExp p q * 2 ^ 52 + ratSig p q) F64.infMag := rfl

theorem roundHalfEven_le {p q n : Nat} (hq : 0 < q) (h : p ≤ n * q) : roundHalfEven p q ≤ n := by
  rcases Nat.lt_or_ge n (roundHalfEven p q) with hlt | hge
  · have hs := roundHalfEven_spec p hq
    have hn := roundHalfEven_nearest p hq n
    generalize roundHalfEven p q = r at *
    obtain ⟨t, rfl⟩ := Nat.exists_eq_add_of_lt hlt
    have : (n + t + 1) * q = n * q + t * q + q := by ring
    rw [this] at hs hn
    unfold ndist at *
    omega
  · exact hge

theorem roundHalfEven_ge {p q n : Nat} (hq : 0 < q) (h : n * q ≤ p) : n ≤ roundHalfEven p q := by
  rcases Nat.lt_or_ge (roundHalfEven p q) n with hlt | hge
  · have hs := roundHalfEven_spec p hq
    generalize roundHalfEven p q = r at *
    obtain ⟨t, rfl⟩ := Nat.exists_eq_add_of_lt hlt
    have : (r + t + 1) * q = r * q + t * q + q := by ring
    rw [this] at h
    unfold ndist at *
    omega
  · exact hge

theorem ratSig_le (p : Nat) {q : Nat} (hq : 0 < q) : ratSig p q ≤ 2 ^ 53 := by
  apply roundHalfEven_le (Nat.mul_pos hq (by positivity))
  have := ratExp_lt p hq
  rw [Nat.pow_add] at this
  calc p ≤ q * (2 ^ ratExp p q * 2 ^ 53) := by omega
    _ = 2 ^ 53 * (q * 2 ^ ratExp p q) := by ring

theorem ratSig_ge (p : Nat) {q : Nat} (hq : 0 < q) (h : 0 < ratExp p q) :
    2 ^ 52 ≤ ratSig p q := by
  apply roundHalfEven_ge (Nat.mul_pos hq (by positivity))
  have := ratExp_ge p h
  rw [Nat.pow_add] at this
  calc 2 ^ 52 * (q * 2 ^ ratExp p q) = q * (2 ^ ratExp p q * 2 ^ 52) := by ring
    _ ≤ p := this

/-- Magnitude bits before clipping at infinity. -/
def rawMag (p q : Nat) : Nat := ratExp p q * 2 ^ 52 + ratSig p q

theorem unitsOf_rawMag (p : Nat) {q : Nat} (hq : 0 < q) :
    F64.unitsOf (rawMag p q) = ratSig p q * 2 ^ ratExp p q :=
  unitsOf_compose (ratSig_le p hq) (fun h => ratSig_ge p hq h)

/-- `rawMag p q` is a nearest magnitude to `p / q`. -/
theorem rawMag_nearest (p : Nat) {q : Nat} (hq : 0 < q) (m : Nat) :
    ndist (F64.unitsOf (rawMag p q) * q) p ≤ ndist (F64.unitsOf m * q) p := by
  rw [unitsOf_rawMag p hq]
  have hQ : 0 < q * 2 ^ ratExp p q := Nat.mul_pos hq (by positivity)
  have key : ∀ n, ndist (ratSig p q * 2 ^ ratExp p q * q) p ≤ ndist (n * 2 ^ ratExp p q * q) p := by
    intro n
    have := roundHalfEven_nearest p hQ n
    rw [show ratSig p q * 2 ^ ratExp p q * q = ratSig p q * (q * 2 ^ ratExp p q) by ring,
      show n * 2 ^ ratExp p q * q = n * (q * 2 ^ ratExp p q) by ring]
    exact this
  rcases unitsOf_cases m (ratExp p q) with ⟨n, hn⟩ | h
  · rw [hn]; exact key n
  · rcases Nat.eq_zero_or_pos (ratExp p q) with h0 | h0
    · have := key (F64.unitsOf m)
      rw [h0] at this ⊢
      simpa using this
    · have hk := key (2 ^ 52)
      have hge := ratExp_ge p h0
      rw [Nat.pow_add] at hge
      have h3 : F64.unitsOf m * q ≤ 2 ^ 52 * 2 ^ ratExp p q * q := Nat.mul_le_mul_right _ h
      have h4 : q * (2 ^ ratExp p q * 2 ^ 52) = 2 ^ 52 * 2 ^ ratExp p q * q := by ring
      rw [h4] at hge
      unfold ndist at *
      omega

theorem oneUnits_pow : ∃ s, F64.oneUnits = 2 ^ (s + 39) ∧ s + 39 = 1074 :=
  ⟨1035, by unfold F64.oneUnits; rfl, rfl⟩

theorem oneUnits_pos : 0 < F64.oneUnits := by
  obtain ⟨s, h, _⟩ := oneUnits_pow
  rw [h]; positivity

/-- Spacing of the largest doubles: `B`. -/
theorem top_bounds : ∃ B, F64.oneUnits * 2 ^ 900 < B ∧
    (∀ m, m < F64.infMag → F64.unitsOf m + B ≤ 2 ^ 53 * B) ∧
    (∀ m, F64.infMag ≤ m → 2 ^ 53 * B ≤ F64.unitsOf m) := by
  obtain ⟨t, ht⟩ : ∃ t, t = 2045 := ⟨2045, rfl⟩
  have hpos : 0 < 2 ^ t := by positivity
  refine ⟨2 ^ t, ?_, ?_, ?_⟩
  · obtain ⟨s, h, hs⟩ := oneUnits_pow
    rw [h, ← Nat.pow_add]
    exact Nat.pow_lt_pow_right (by omega) (by omega)
  · intro m h
    unfold F64.infMag at h
    unfold F64.unitsOf
    have hm := Nat.mod_lt m (show 0 < 2 ^ 52 by omega)
    split
    · have : 2 ^ 52 ≤ 2 ^ 52 * 2 ^ t := Nat.le_mul_of_pos_right _ hpos
      omega
    · have hE : m / 2 ^ 52 - 1 ≤ t := by omega
      have hf : m % 2 ^ 52 + 2 ^ 52 ≤ 2 ^ 53 - 1 := by omega
      have h1 : (m % 2 ^ 52 + 2 ^ 52) * 2 ^ (m / 2 ^ 52 - 1) ≤ (2 ^ 53 - 1) * 2 ^ t :=
        Nat.mul_le_mul hf (Nat.pow_le_pow_right (by omega) hE)
      have h2 : (2 ^ 53 - 1) * 2 ^ t + 2 ^ t = 2 ^ 53 * 2 ^ t := by
        rw [Nat.sub_mul]; omega
      omega
  · intro m h
    unfold F64.infMag at h
    unfold F64.unitsOf
    rw [if_neg (by omega)]
    have hE : t + 1 ≤ m / 2 ^ 52 - 1 := by omega
    calc 2 ^ 53 * 2 ^ t = 2 ^ 52 * 2 ^ (t + 1) := by ring
      _ ≤ (m % 2 ^ 52 + 2 ^ 52) * 2 ^ (m / 2 ^ 52 - 1) :=
        Nat.mul_le_mul (by omega) (Nat.pow_le_pow_right (by omega) hE)

theorem unitsOf_strictMono {a b : Nat} (h : a < b) : F64.unitsOf a < F64.unitsOf b := by
  unfold F64.unitsOf
  have ha := Nat.mod_lt a (show 0 < 2 ^ 52 by omega)
  have hb := Nat.mod_lt b (show 0 < 2 ^ 52 by omega)
  have hab : a / 2 ^ 52 < b / 2 ^ 52 ∨ (a / 2 ^ 52 = b / 2 ^ 52 ∧ a % 2 ^ 52 < b % 2 ^ 52) := by
    omega
  generalize a / 2 ^ 52 = A at *
  generalize a % 2 ^ 52 = x at *
  generalize b / 2 ^ 52 = B at *
  generalize b % 2 ^ 52 = y at *
  rcases hab with h1 | ⟨rfl, h1⟩
  · rw [if_neg (show ¬ B = 0 by omega)]
    have hpos : 0 < 2 ^ (B - 1) := by positivity
    split
    · calc x < 2 ^ 52 * 1 := by omega
        _ ≤ (y + 2 ^ 52) * 2 ^ (B - 1) := Nat.mul_le_mul (by omega) hpos
    · have : B - 1 = (A - 1) + (B - 1 - (A - 1) - 1) + 1 := by omega
      calc (x + 2 ^ 52) * 2 ^ (A - 1) < 2 ^ 53 * 2 ^ (A - 1) :=
            Nat.mul_lt_mul_of_pos_right (by omega) (by positivity)
        _ = 2 ^ 52 * 2 ^ (A - 1 + 1) := by ring
        _ ≤ (y + 2 ^ 52) * 2 ^ (B - 1) :=
          Nat.mul_le_mul (by omega) (Nat.pow_le_pow_right (by omega) (by omega))
  · split
    · exact h1
    · exact Nat.mul_lt_mul_of_pos_right (by omega) (by positivity)

theorem unitsOf_inj {a b : Nat} (h : F64.unitsOf a = F64.unitsOf b) : a = b := by
  rcases Nat.lt_trichotomy a b with h1 | h1 | h1
  · have := unitsOf_strictMono h1; omega
  · exact h1
  · have := unitsOf_strictMono h1; omega

/-- Rounding an exactly representable rational returns it. -/
theorem rawMag_of_units {m q : Nat} (hq : 0 < q) : rawMag (F64.unitsOf m * q) q = m := by
  have h := rawMag_nearest (F64.unitsOf m * q) hq m
  have h0 : ndist (F64.unitsOf m * q) (F64.unitsOf m * q) = 0 := by simp [ndist]
  rw [h0] at h
  have h1 : F64.unitsOf (rawMag (F64.unitsOf m * q) q) * q = F64.unitsOf m * q := by
    unfold ndist at h; omega
  exact unitsOf_inj (Nat.eq_of_mul_eq_mul_right hq h1)

theorem rawMag_scale (p q c : Nat) (hc : 0 < c) : rawMag (c * p) (c * q) = rawMag p q := by
  unfold rawMag ratSig ratExp
  rw [Nat.mul_div_mul_left _ _ hc, Nat.mul_assoc, roundHalfEven_scale _ _ _ hc]

theorem magOfRat_scale (p q c : Nat) (hc : 0 < c) : magOfRat (c * p) (c * q) = magOfRat p q := by
  rw [magOfRat_eq, magOfRat_eq]
  have := rawMag_scale p q c hc
  unfold rawMag at this
  rw [this]

theorem magOfRat_of_lt {p q : Nat} (h : rawMag p q < F64.infMag) : magOfRat p q = rawMag p q := by
  rw [magOfRat_eq]; unfold rawMag at *; omega

theorem magOfRat_le (p q : Nat) : magOfRat p q ≤ F64.infMag := by
  rw [magOfRat_eq]; omega

/-! ### Sign and magnitude -/

theorem infMag_lt : F64.infMag < 2 ^ 63 := by unfold F64.infMag; norm_num

theorem ofMag_toNat (n : Bool) {m : Nat} (h : m < 2 ^ 63) :
    (F64.ofMag n m).bits.toNat = (if n then 2 ^ 63 else 0) + m := by
  simp only [F64.ofMag, BitVec.toNat_ofNat]
  apply Nat.mod_eq_of_lt
  split <;> omega

theorem ofMag_neg (n : Bool) {m : Nat} (h : m < 2 ^ 63) : (F64.ofMag n m).neg = n := by
  unfold F64.neg
  rw [ofMag_toNat n h]
  cases n
  · simp; omega
  · simp; omega

theorem ofMag_units (n : Bool) {m : Nat} (h : m < 2 ^ 63) :
    (F64.ofMag n m).units = F64.unitsOf m := by
  unfold F64.units
  rw [ofMag_toNat n h]
  congr 1
  cases n <;> simp <;> omega

theorem ofMag_expField (n : Bool) {m : Nat} (h : m < 2 ^ 63) :
    (F64.ofMag n m).expField = m / 2 ^ 52 := by
  unfold F64.expField
  rw [ofMag_toNat n h]
  cases n <;> simp <;> omega

theorem ofMag_isFinite (n : Bool) {m : Nat} (h : m < F64.infMag) :
    (F64.ofMag n m).isFinite = true := by
  unfold F64.isFinite
  rw [ofMag_expField n (by have := infMag_lt; omega)]
  unfold F64.infMag at h
  simp
  omega

/-- Low 63 bits. -/
def F64.mag (x : F64) : Nat := x.bits.toNat % 2 ^ 63

theorem mag_lt (x : F64) : x.mag < 2 ^ 63 := Nat.mod_lt _ (by omega)

theorem mag_lt_of_finite {x : F64} (h : x.isFinite = true) : x.mag < F64.infMag := by
  unfold F64.isFinite F64.expField at h
  unfold F64.mag F64.infMag
  have hl := x.bits.isLt
  simp at h
  omega

theorem ofMag_neg_mag (x : F64) : F64.ofMag x.neg x.mag = x := by
  cases x with
  | mk b =>
    unfold F64.ofMag F64.neg F64.mag
    congr 1
    apply BitVec.eq_of_toNat_eq
    have := b.isLt
    simp only [BitVec.toNat_ofNat, decide_eq_true_eq]
    split <;> omega

theorem units_eq (x : F64) : x.units = F64.unitsOf x.mag := rfl

theorem finite_not_nan {x : F64} (h : x.isFinite = true) : x.isNan = false ∧ x.isInf = false := by
  unfold F64.isFinite at h
  unfold F64.isNan F64.isInf
  simp at h
  simp [h]

end Dxf
