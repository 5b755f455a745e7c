import Verif.Model.FloatOps
import Verif.Model.Date
import Verif.Lemmas.Num

/-! Integers as doubles. -/

namespace Dxf

theorem ofInt_spec (n : Int) (h : n.natAbs < 2 ^ 53) :
    (F64.ofInt n).isFinite = true ∧ (F64.ofInt n).neg = decide (n < 0) ∧
    (F64.ofInt n).units = n.natAbs * F64.oneUnits := by
  have hlt := rawMag_int_lt n.natAbs h
  have h63 : rawMag (n.natAbs * F64.oneUnits) 1 < 2 ^ 63 := by have := infMag_lt; omega
  unfold F64.ofInt
  rw [magOfRat_of_lt hlt]
  exact ⟨ofMag_isFinite _ hlt, ofMag_neg _ h63, by rw [ofMag_units _ h63, rawMag_int _ h]⟩

theorem trunc_ofInt (n : Int) (h : n.natAbs < 2 ^ 53) : (F64.ofInt n).trunc = n := by
  obtain ⟨_, h2, h3⟩ := ofInt_spec n h
  unfold F64.trunc
  rw [h2, h3, Nat.mul_div_cancel _ oneUnits_pos]
  by_cases hn : n < 0
  · simp only [hn, decide_true, if_true]; omega
  · simp only [hn, decide_false, Bool.false_eq_true, if_false]; omega

theorem toI64_ofInt (n : Int) (h : n.natAbs < 2 ^ 53) : (F64.ofInt n).toI64? = some n := by
  obtain ⟨h1, h2⟩ := finite_not_nan (ofInt_spec n h).1
  unfold F64.toI64?
  rw [h1, h2, trunc_ofInt n h]
  simp only [Bool.or_self, Bool.false_eq_true, if_false]
  rw [if_pos (by omega)]

theorem toIntSat_ofInt (lo hi n : Int) (h : n.natAbs < 2 ^ 53) :
    (F64.ofInt n).toIntSat lo hi = max lo (min hi n) := by
  obtain ⟨h1, h2⟩ := finite_not_nan (ofInt_spec n h).1
  unfold F64.toIntSat
  rw [h1, h2, trunc_ofInt n h]
  simp

theorem F64.toI16_ofInt (n : Int) (h : n.natAbs < 2 ^ 53) :
    (F64.ofInt n).toI16 = BitVec.ofInt 16 (max (-32768) (min 32767 n)) := by
  have := Dxf.toI16_ofInt (decide (n < 0)) n.natAbs h
  unfold F64.ofInt
  rw [this]
  congr 3
  by_cases hn : n < 0
  · simp only [hn, decide_true, if_true]; omega
  · simp only [hn, decide_false, Bool.false_eq_true, if_false]; omega

theorem Dur.roundtrip (d : Dur) (hn : d.nanos = 0) (hs : d.secs.toNat < 2 ^ 53) :
    Dur.ofDouble d.asDouble = d := by
  obtain ⟨s, n⟩ := d
  simp only at hn hs
  subst hn
  unfold Dur.ofDouble Dur.asDouble
  rw [toIntSat_ofInt _ _ _ (by simpa using hs)]
  simp only [Dur.mk.injEq, and_true]
  have : max (0 : Int) (min (2 ^ 64 - 1) (s.toNat : Int)) = s.toNat := by omega
  rw [this]
  simp

end Dxf
