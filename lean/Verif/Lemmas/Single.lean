import Verif.Model.Single
import Verif.Lemmas.FloatOps

/-! Rounding lemmas for single-precision floats, in parallel with Lemmas/Float.lean. -/

namespace Dxf.F32

theorem unitsOf_compose {s R : Nat} (hR : R ≤ 2 ^ 24) (hs : 0 < s → 2 ^ 23 ≤ R) :
    unitsOf (s * 2 ^ 23 + R) = R * 2 ^ s := by
  unfold unitsOf
  rcases Nat.lt_or_ge R (2 ^ 23) with h | h
  · have : s = 0 := by
      rcases Nat.eq_zero_or_pos s with h0 | h0
      · exact h0
      · have := hs h0; omega
    subst this
    have e1 : (0 * 2 ^ 23 + R) / 2 ^ 23 = 0 := by omega
    have e2 : (0 * 2 ^ 23 + R) % 2 ^ 23 = R := by omega
    rw [if_pos e1, e2]; simp
  · rcases Nat.lt_or_ge R (2 ^ 24) with h' | h'
    · have e1 : (s * 2 ^ 23 + R) / 2 ^ 23 = s + 1 := by omega
      have e2 : (s * 2 ^ 23 + R) % 2 ^ 23 = R - 2 ^ 23 := by omega
      rw [e1, e2, if_neg (by omega)]
      rw [show R - 2 ^ 23 + 2 ^ 23 = R by omega]
      simp
    · have hR' : R = 2 ^ 24 := by omega
      subst hR'
      have e1 : (s * 2 ^ 23 + 2 ^ 24) / 2 ^ 23 = s + 2 := by omega
      have e2 : (s * 2 ^ 23 + 2 ^ 24) % 2 ^ 23 = 0 := by omega
      rw [e1, e2, if_neg (by omega)]
      rw [show s + 2 - 1 = s + 1 by omega, Nat.pow_succ]
      ring

/-- Every magnitude is either a multiple of `2^s` or below `2^(23+s)`. -/
theorem unitsOf_cases (m s : Nat) :
    (∃ n, unitsOf m = n * 2 ^ s) ∨ unitsOf m ≤ 2 ^ 23 * 2 ^ s := by
  unfold unitsOf
  have hm := Nat.mod_lt m (show 0 < 2 ^ 23 by omega)
  split
  · right
    calc m % 2 ^ 23 ≤ 2 ^ 23 * 1 := by omega
      _ ≤ _ := Nat.mul_le_mul_left _ (Nat.pos_of_ne_zero (by positivity))
  · rename_i h
    rcases Nat.lt_or_ge (m / 2 ^ 23 - 1) s with h1 | h1
    · right
      have : s = (m / 2 ^ 23 - 1) + (s - (m / 2 ^ 23 - 1) - 1) + 1 := by omega
      generalize hE : m / 2 ^ 23 - 1 = E at *
      generalize s - E - 1 = d at *
      subst this
      have h2 : m % 2 ^ 23 + 2 ^ 23 ≤ 2 ^ 24 := by omega
      calc (m % 2 ^ 23 + 2 ^ 23) * 2 ^ E ≤ 2 ^ 24 * 2 ^ E := Nat.mul_le_mul_right _ h2
        _ ≤ (2 ^ 24 * 2 ^ E) * 2 ^ d := Nat.le_mul_of_pos_right _ (by positivity)
        _ = 2 ^ 23 * 2 ^ (E + d + 1) := by ring
    · left
      refine ⟨(m % 2 ^ 23 + 2 ^ 23) * 2 ^ (m / 2 ^ 23 - 1 - s), ?_⟩
      rw [Nat.mul_assoc, ← Nat.pow_add]
      congr 2
      omega

/-- The exponent used by `magOfRat`. -/
def ratExp (p q : Nat) : Nat := (p / q).log2 + 1 - 24

theorem ratExp_lt (p : Nat) {q : Nat} (hq : 0 < q) : p < q * 2 ^ (ratExp p q + 24) := by
  unfold ratExp
  have h1 : p / q < 2 ^ ((p / q).log2 + 1) := Nat.lt_log2_self
  have h2 : 2 ^ ((p / q).log2 + 1) ≤ 2 ^ ((p / q).log2 + 1 - 24 + 24) :=
    Nat.pow_le_pow_right (by omega) (by omega)
  have h3 : p / q < 2 ^ ((p / q).log2 + 1 - 24 + 24) := by omega
  rw [Nat.div_lt_iff_lt_mul hq] at h3
  rw [Nat.mul_comm]; exact h3

theorem ratExp_ge (p : Nat) {q : Nat} (h : 0 < ratExp p q) :
    q * 2 ^ (ratExp p q + 23) ≤ p := by
  unfold ratExp at *
  have h0 : p / q ≠ 0 := by
    intro h0; rw [h0] at h; simp at h
  have h1 : 2 ^ (p / q).log2 ≤ p / q := Nat.log2_self_le h0
  have h2 : (p / q).log2 + 1 - 24 + 23 = (p / q).log2 := by omega
  rw [h2]
  calc q * 2 ^ (p / q).log2 ≤ q * (p / q) := Nat.mul_le_mul_left _ h1
    _ ≤ p := Nat.mul_div_le p q

/-- The rounded significand. -/
def ratSig (p q : Nat) : Nat := roundHalfEven p (q * 2 ^ ratExp p q)

theorem magOfRat_eq (p q : Nat) :
    magOfRat p q = min (ratExp p q * 2 ^ 23 + ratSig p q) infMag := rfl

theorem ratSig_le (p : Nat) {q : Nat} (hq : 0 < q) : ratSig p q ≤ 2 ^ 24 := by
  apply roundHalfEven_le (Nat.mul_pos hq (by positivity))
  have := ratExp_lt p hq
  rw [Nat.pow_add] at this
  calc p ≤ q * (2 ^ ratExp p q * 2 ^ 24) := by omega
    _ = 2 ^ 24 * (q * 2 ^ ratExp p q) := by ring

theorem ratSig_ge (p : Nat) {q : Nat} (hq : 0 < q) (h : 0 < ratExp p q) :
    2 ^ 23 ≤ ratSig p q := by
  apply roundHalfEven_ge (Nat.mul_pos hq (by positivity))
  have := ratExp_ge p h
  rw [Nat.pow_add] at this
  calc 2 ^ 23 * (q * 2 ^ ratExp p q) = q * (2 ^ ratExp p q * 2 ^ 23) := by ring
    _ ≤ p := this

/-- Magnitude bits before clipping at infinity. -/
def rawMag (p q : Nat) : Nat := ratExp p q * 2 ^ 23 + ratSig p q

theorem unitsOf_rawMag (p : Nat) {q : Nat} (hq : 0 < q) :
    unitsOf (rawMag p q) = ratSig p q * 2 ^ ratExp p q :=
  unitsOf_compose (ratSig_le p hq) (fun h => ratSig_ge p hq h)

/-- `rawMag p q` is a nearest magnitude to `p / q`. -/
theorem rawMag_nearest (p : Nat) {q : Nat} (hq : 0 < q) (m : Nat) :
    ndist (unitsOf (rawMag p q) * q) p ≤ ndist (unitsOf m * q) p := by
  rw [unitsOf_rawMag p hq]
  have hQ : 0 < q * 2 ^ ratExp p q := Nat.mul_pos hq (by positivity)
  have key : ∀ n, ndist (ratSig p q * 2 ^ ratExp p q * q) p ≤ ndist (n * 2 ^ ratExp p q * q) p := by
    intro n
    have := roundHalfEven_nearest p hQ n
    rw [show ratSig p q * 2 ^ ratExp p q * q = ratSig p q * (q * 2 ^ ratExp p q) by ring,
      show n * 2 ^ ratExp p q * q = n * (q * 2 ^ ratExp p q) by ring]
    exact this
  rcases unitsOf_cases m (ratExp p q) with ⟨n, hn⟩ | h
  · rw [hn]; exact key n
  · rcases Nat.eq_zero_or_pos (ratExp p q) with h0 | h0
    · have := key (unitsOf m)
      rw [h0] at this ⊢
      simpa using this
    · have hk := key (2 ^ 23)
      have hge := ratExp_ge p h0
      rw [Nat.pow_add] at hge
      have h3 : unitsOf m * q ≤ 2 ^ 23 * 2 ^ ratExp p q * q := Nat.mul_le_mul_right _ h
      have h4 : q * (2 ^ ratExp p q * 2 ^ 23) = 2 ^ 23 * 2 ^ ratExp p q * q := by ring
      rw [h4] at hge
      unfold ndist at *
      omega

theorem unitsOf_strictMono {a b : Nat} (h : a < b) : unitsOf a < unitsOf b := by
  unfold unitsOf
  have ha := Nat.mod_lt a (show 0 < 2 ^ 23 by omega)
  have hb := Nat.mod_lt b (show 0 < 2 ^ 23 by omega)
  have hab : a / 2 ^ 23 < b / 2 ^ 23 ∨ (a / 2 ^ 23 = b / 2 ^ 23 ∧ a % 2 ^ 23 < b % 2 ^ 23) := by
    omega
  generalize a / 2 ^ 23 = A at *
  generalize a % 2 ^ 23 = x at *
  generalize b / 2 ^ 23 = B at *
  generalize b % 2 ^ 23 = y at *
  rcases hab with h1 | ⟨rfl, h1⟩
  · rw [if_neg (show ¬ B = 0 by omega)]
    have hpos : 0 < 2 ^ (B - 1) := by positivity
    split
    · calc x < 2 ^ 23 * 1 := by omega
        _ ≤ (y + 2 ^ 23) * 2 ^ (B - 1) := Nat.mul_le_mul (by omega) hpos
    · have : B - 1 = (A - 1) + (B - 1 - (A - 1) - 1) + 1 := by omega
      calc (x + 2 ^ 23) * 2 ^ (A - 1) < 2 ^ 24 * 2 ^ (A - 1) :=
            Nat.mul_lt_mul_of_pos_right (by omega) (by positivity)
        _ = 2 ^ 23 * 2 ^ (A - 1 + 1) := by ring
        _ ≤ (y + 2 ^ 23) * 2 ^ (B - 1) :=
          Nat.mul_le_mul (by omega) (Nat.pow_le_pow_right (by omega) (by omega))
  · split
    · exact h1
    · exact Nat.mul_lt_mul_of_pos_right (by omega) (by positivity)

theorem unitsOf_inj {a b : Nat} (h : unitsOf a = unitsOf b) : a = b := by
  rcases Nat.lt_trichotomy a b with h1 | h1 | h1
  · have := unitsOf_strictMono h1; omega
  · exact h1
  · have := unitsOf_strictMono h1; omega

/-- Rounding an exactly representable rational returns it. -/
theorem rawMag_of_units {m q : Nat} (hq : 0 < q) : rawMag (unitsOf m * q) q = m := by
  have h := rawMag_nearest (unitsOf m * q) hq m
  have h0 : ndist (unitsOf m * q) (unitsOf m * q) = 0 := by simp [ndist]
  rw [h0] at h
  have h1 : unitsOf (rawMag (unitsOf m * q) q) * q = unitsOf m * q := by
    unfold ndist at h; omega
  exact unitsOf_inj (Nat.eq_of_mul_eq_mul_right hq h1)

/-! ### Sign and magnitude -/

theorem infMag_lt : infMag < 2 ^ 31 := by unfold infMag; norm_num

theorem magOfRat_eq_min (p q : Nat) : magOfRat p q = min (rawMag p q) infMag := rfl

/-- Low 31 bits. -/
def mag (x : F32) : Nat := x.toNat % 2 ^ 31

theorem ofMag_toNat (n : Bool) {m : Nat} (h : m < 2 ^ 31) :
    (ofMag n m).toNat = (if n then 2 ^ 31 else 0) + m := by
  simp only [ofMag, BitVec.toNat_ofNat]
  apply Nat.mod_eq_of_lt
  split <;> omega

theorem ofMag_neg (n : Bool) {m : Nat} (h : m < 2 ^ 31) : (ofMag n m).neg = n := by
  unfold neg
  rw [ofMag_toNat n h]
  cases n
  · simp; omega
  · simp; omega

theorem ofMag_mag (n : Bool) {m : Nat} (h : m < 2 ^ 31) : (ofMag n m).mag = m := by
  unfold mag
  rw [ofMag_toNat n h]
  cases n <;> simp <;> omega

theorem ofMag_neg_mag (x : F32) : ofMag x.neg x.mag = x := by
  unfold ofMag neg mag
  apply BitVec.eq_of_toNat_eq
  have := x.isLt
  simp only [BitVec.toNat_ofNat, decide_eq_true_eq]
  split <;> omega

theorem expField_mag (x : F32) : x.expField = x.mag / 2 ^ 23 := by
  unfold expField mag; omega

theorem fracField_mag (x : F32) : x.fracField = x.mag % 2 ^ 23 := by
  unfold fracField mag; omega

/-- Neither NaN nor an infinity. -/
theorem finite_iff (x : F32) : (x.isNan = false ∧ x.isInf = false) ↔ x.mag < infMag := by
  unfold isNan isInf infMag
  rw [expField_mag]
  have h := Nat.mod_lt x.toNat (show 0 < 2 ^ 31 by omega)
  have h' : x.mag < 2 ^ 31 := h
  generalize x.mag = m at *
  generalize x.fracField = f
  by_cases h1 : m / 2 ^ 23 = 255
  · by_cases h2 : f = 0 <;> simp [h1, h2] <;> omega
  · simp [h1]; omega

theorem inf_mag {x : F32} (h : x.isInf = true) : x.mag = infMag := by
  unfold isInf at h
  rw [expField_mag, fracField_mag] at h
  simp at h
  unfold infMag
  omega

/-! ### Widening -/

theorem ratio_pow : ∃ s, ratio = 2 ^ s ∧ s = 925 := ⟨925, by unfold ratio; rfl, rfl⟩

theorem ratio_pos : 0 < ratio := by
  obtain ⟨s, h, _⟩ := ratio_pow
  rw [h]; positivity

/-- A number with few significant bits is a double. -/
theorem exact_of_short {a k : Nat} (h : a < 2 ^ 53) :
    F64.unitsOf (Dxf.rawMag (a * 2 ^ k) 1) = a * 2 ^ k := by
  rcases Nat.eq_zero_or_pos a with rfl | ha
  · rw [Nat.zero_mul]
    decide
  rw [Dxf.unitsOf_rawMag _ (by omega)]
  have hs : Dxf.ratExp (a * 2 ^ k) 1 ≤ k := by
    unfold Dxf.ratExp
    rw [Nat.div_one]
    have : (a * 2 ^ k).log2 < 53 + k := by
      rw [Nat.log2_lt (Nat.mul_pos ha (by positivity)).ne', Nat.pow_add]
      exact Nat.mul_lt_mul_of_pos_right h (by positivity)
    omega
  unfold Dxf.ratSig
  generalize Dxf.ratExp (a * 2 ^ k) 1 = s at *
  have e : a * 2 ^ k = (a * 2 ^ (k - s)) * (1 * 2 ^ s) := by
    rw [Nat.one_mul, Nat.mul_assoc, ← Nat.pow_add]
    congr 2; omega
  rw [e, roundHalfEven_exact _ (by positivity)]
  ring

/-- The units of a float are few significant bits. -/
theorem unitsOf_short (m : Nat) : ∃ a k, a < 2 ^ 24 ∧ unitsOf m = a * 2 ^ k ∧ k ≤ m / 2 ^ 23 := by
  have hm := Nat.mod_lt m (show 0 < 2 ^ 23 by omega)
  unfold unitsOf
  split
  · exact ⟨m % 2 ^ 23, 0, by omega, by simp, by omega⟩
  · exact ⟨m % 2 ^ 23 + 2 ^ 23, m / 2 ^ 23 - 1, by omega, rfl, by omega⟩

/-- A finite float is a double: its magnitude. -/
theorem widen_mag {m : Nat} (h : m < infMag) :
    Dxf.rawMag (unitsOf m * ratio) 1 < F64.infMag ∧
    F64.unitsOf (Dxf.rawMag (unitsOf m * ratio) 1) = unitsOf m * ratio := by
  obtain ⟨a, k, ha, hu, hk⟩ := unitsOf_short m
  obtain ⟨s, hs, hs'⟩ := ratio_pow
  have hex : F64.unitsOf (Dxf.rawMag (unitsOf m * ratio) 1) = unitsOf m * ratio := by
    rw [hu, hs, Nat.mul_assoc, ← Nat.pow_add]
    exact exact_of_short (by omega)
  refine ⟨?_, hex⟩
  obtain ⟨B, hB, _, hB2⟩ := top_bounds
  by_contra hc
  have h1 := hB2 _ (Nat.le_of_not_lt hc)
  rw [hex, hu, hs, Nat.mul_assoc, ← Nat.pow_add] at h1
  obtain ⟨t, ht, ht'⟩ := oneUnits_pow
  rw [ht, ← Nat.pow_add] at hB
  have hk2 : k ≤ 254 := by unfold infMag at h; omega
  have h2 : a * 2 ^ (k + s) ≤ 2 ^ 24 * 2 ^ (k + s) := Nat.mul_le_mul_right _ (by omega)
  rw [← Nat.pow_add] at h2
  have h3 : 2 ^ (24 + (k + s)) ≤ 2 ^ (t + 39 + 900) := Nat.pow_le_pow_right (by omega) (by omega)
  have h4 : B ≤ 2 ^ 53 * B := Nat.le_mul_of_pos_left _ (by omega)
  omega

theorem widen_spec {x : F32} (h : x.mag < infMag) :
    (widen x).isFinite = true ∧ (widen x).neg = x.neg ∧
    (widen x).units = unitsOf x.mag * ratio := by
  obtain ⟨h1, h2⟩ := (finite_iff x).2 h
  obtain ⟨hlt, hu⟩ := widen_mag h
  have h63 := Nat.lt_trans hlt Dxf.infMag_lt
  have : widen x = F64.ofMag x.neg (Dxf.rawMag (unitsOf x.mag * ratio) 1) := by
    unfold widen
    rw [h1, h2, if_neg (by decide), if_neg (by decide)]
    exact congrArg _ (Dxf.magOfRat_of_lt hlt)
  rw [this]
  exact ⟨ofMag_isFinite _ hlt, Dxf.ofMag_neg _ h63, by rw [ofMag_units _ h63, hu]⟩

/-- Narrowing undoes widening. -/
theorem narrow_widen {x : F32} (h : x.isNan = false) : narrow (widen x) = x := by
  by_cases hi : x.isInf = true
  · have e : widen x = F64.ofMag x.neg F64.infMag := by
      unfold widen; rw [h, hi]; rfl
    rw [e]
    have hx := inf_mag hi
    have := ofMag_neg_mag x
    rw [hx] at this
    have hn : ∀ b, narrow (F64.ofMag b F64.infMag) = ofMag b infMag := by decide +kernel
    rw [hn]; exact this
  · have hf := (finite_iff x).1 ⟨h, by simpa using hi⟩
    obtain ⟨h1, h2, h3⟩ := widen_spec hf
    obtain ⟨n1, n2⟩ := finite_not_nan h1
    unfold narrow
    rw [n1, n2, if_neg (by decide), if_neg (by decide), h2, h3, magOfRat_eq_min,
      rawMag_of_units ratio_pos, Nat.min_eq_left (Nat.le_of_lt hf)]
    exact ofMag_neg_mag x

theorem narrow_nan (d : F64) : (narrow d).isNan = d.isNan := by
  unfold narrow
  split
  · rename_i h; rw [h]; decide
  · rename_i h
    have h : d.isNan = false := by simpa using h
    rw [h]
    have key : ∀ (b : Bool) (m : Nat), m ≤ infMag → (ofMag b m).isNan = false := by
      intro b m hm
      have hl := infMag_lt
      rcases Nat.lt_or_ge m infMag with h1 | h1
      · exact ((finite_iff _).2 (by rw [ofMag_mag b (by omega)]; exact h1)).1
      · have : m = infMag := by omega
        subst this
        revert b; decide
    split
    · exact key _ _ (Nat.le_refl _)
    · exact key _ _ (by rw [magOfRat_eq_min]; omega)

/-- Rounding to single precision a second time changes nothing. -/
theorem single_single (d : F64) : single (single d) = single d := by
  unfold single
  by_cases h : d.isNan = true
  · have : narrow d = 0x7fc00000#32 := by unfold narrow; rw [h]; rfl
    rw [this]
    decide +kernel
  · rw [narrow_widen (by rw [narrow_nan]; simpa using h)]

/-- Signed number of units of `2^-1074`. -/
theorem single_nearest {d : F64} (hd : d.isFinite = true) (hs : (single d).isFinite = true)
    (x : F32) :
    (single d).neg = d.neg ∧
    ndist (single d).units d.units ≤ ndist (unitsOf x.mag * ratio) d.units := by
  obtain ⟨n1, n2⟩ := finite_not_nan hd
  have hn : narrow d = ofMag d.neg (magOfRat d.units ratio) := by
    unfold narrow; rw [n1, n2]; rfl
  have hle : magOfRat d.units ratio ≤ infMag := by rw [magOfRat_eq_min]; omega
  have hl := infMag_lt
  have hlt : magOfRat d.units ratio < infMag := by
    rcases Nat.lt_or_ge (magOfRat d.units ratio) infMag with h | h
    · exact h
    · exfalso
      have e : magOfRat d.units ratio = infMag := by omega
      unfold single at hs
      rw [hn, e] at hs
      revert hs
      generalize d.neg = b
      revert b
      decide +kernel
  have hm : (narrow d).mag = magOfRat d.units ratio := by rw [hn, ofMag_mag _ (by omega)]
  obtain ⟨h1, h2, h3⟩ := widen_spec (x := narrow d) (by rw [hm]; exact hlt)
  refine ⟨?_, ?_⟩
  · unfold single; rw [h2, hn, ofMag_neg _ (by omega)]
  · unfold single
    rw [h3, hm]
    have : magOfRat d.units ratio = rawMag d.units ratio := by
      rw [magOfRat_eq_min] at hlt ⊢; omega
    rw [this]
    exact rawMag_nearest d.units ratio_pos x.mag

end Dxf.F32
