import Verif.Lemmas.Date
import Verif.Spec.Header

/-! # C44: dates -/

namespace Dxf

/-- The date that is read from the number written for `d`. -/
def Date.reread (d : Date) : Except DxfErr Date := Date.ofDouble (Date.asDouble d)

/-- One second, in nanoseconds. -/
def Date.second : Int := 1000000000

/-- C44: every date of whole seconds from 1900 to the year 10610 is read back as the same date or
as the date one second later. -/
theorem C44_near (s : Int) (h0 : 0 ≤ s) (h1 : s < 2 ^ 38) :
    Date.reread (s * Date.second) = .ok (s * Date.second) ∨
    Date.reread (s * Date.second) = .ok (s * Date.second + Date.second) := by
  have := Date.roundtrip_near s h0 h1
  unfold Date.reread Date.second
  rw [Int.add_mul, Int.one_mul] at this
  exact this

/-- C44: any date in that range, with or without fractions of a second, is read back less than one
second early and at most one second late, and reading it never panics. -/
theorem C44_error (d : Int) (h0 : 0 ≤ d) (h1 : d < 2 ^ 38 * Date.second) :
    ∃ d' : Int, Date.reread d = .ok d' ∧ d - d' < Date.second ∧ d' - d ≤ Date.second := by
  unfold Date.reread Date.second at *
  have e : d.tdiv 1000000000 = d / 1000000000 := Int.tdiv_eq_ediv_of_nonneg h0
  have hs : Date.asDouble d = Date.asDouble (d / 1000000000 * 1000000000) := by
    unfold Date.asDouble
    rw [e, Int.mul_tdiv_cancel _ (by omega)]
  rw [hs]
  have hd0 : 0 ≤ d / 1000000000 := by omega
  have hd1 : d / 1000000000 < 2 ^ 38 := by omega
  rcases Date.roundtrip_near (d / 1000000000) hd0 hd1 with h | h
  · exact ⟨_, h, by omega, by omega⟩
  · exact ⟨_, h, by omega, by omega⟩

example : (0 : Int) ≤ 3944678400 ∧ (3944678400 : Int) < 2 ^ 38 := by decide

/-- C44: the start of every day in that range comes back one second late: each save and load of
such a date changes it. -/
theorem C44_midnight (k : Int) (h0 : 0 ≤ k) (h1 : k < 2 ^ 20) :
    Date.reread (k * 86400 * Date.second) = .ok (k * 86400 * Date.second + Date.second) := by
  have := Date.midnight k h0 h1
  unfold Date.reread Date.second
  rw [Int.add_mul, Int.one_mul] at this
  exact this

/-- C44: fractions of a second are not written. -/
theorem C44_fraction (d : Int) (h0 : 0 ≤ d) :
    Date.asDouble d = Date.asDouble (d / Date.second * Date.second) := by
  unfold Date.asDouble Date.second
  rw [Int.mul_tdiv_cancel _ (by omega), Int.tdiv_eq_ediv_of_nonneg h0]

/-- C44: dates before 1900 are read as the first moment of 1900. -/
theorem C44_before_1900 : Date.reread (-86400 * 365 * Date.second) = .ok 0 := by decide +kernel

/-- The moment that a number in a file stands for, in seconds since the start of 1900. -/
def Date.meant (f : F64) : Int :=
  ((f.sub (F64.ofInt 2415020)).mul (F64.ofInt 86400)).toIntSat (-2 ^ 63) (2 ^ 63 - 1) - 86399

/-- C44: exactly the numbers up to the last second of the year 262142 are read without a panic
(apart from numbers so far below zero that they are no duration), those after the start of 1900 as
the moment they stand for. -/
theorem C44_limits (f : F64) (h : ¬ (f.isFinite && f.units = 0) = true) :
    ((∃ d, Date.ofDouble f = .ok d) ↔
      -9223372036854775 ≤ Date.meant f ∧ Date.meant f ≤ 8212475865599) ∧
    ∀ d, Date.ofDouble f = .ok d → d = max 0 (Date.meant f) * Date.second := by
  unfold Date.ofDouble Date.meant Date.second Date.maxSecs
  rw [if_neg h]
  dsimp only
  generalize ((f.sub (F64.ofInt 2415020)).mul (F64.ofInt 86400)).toIntSat (-2 ^ 63) (2 ^ 63 - 1) = x
  have e : ∀ (d d' : Date), (Except.ok d' : Except DxfErr Date) = .ok d → d = d' :=
    fun d d' h => by cases h; rfl
  by_cases h1 : x - 86400 < -2 ^ 63
  · rw [if_pos h1]
    exact ⟨⟨fun ⟨_, h⟩ => (by cases h), fun h => (by omega)⟩, fun _ h => (by cases h)⟩
  rw [if_neg h1]
  by_cases h2 : x - 86400 + 1 < -((2 ^ 63 - 1) / 1000) ∨ (2 ^ 63 - 1) / 1000 < x - 86400 + 1
  · rw [if_pos h2]
    exact ⟨⟨fun ⟨_, h⟩ => (by cases h), fun h => (by omega)⟩, fun _ h => (by cases h)⟩
  rw [if_neg h2]
  by_cases h3 : 0 < x - 86400 + 1
  · rw [if_pos h3]
    by_cases h4 : 95051804 * 86400 - 1 < x - 86400 + 1
    · rw [if_pos h4]
      exact ⟨⟨fun ⟨_, h⟩ => (by cases h), fun h => (by omega)⟩, fun _ h => (by cases h)⟩
    · rw [if_neg h4]
      refine ⟨⟨fun _ => by omega, fun _ => ⟨_, rfl⟩⟩, fun d h => ?_⟩
      rw [e _ _ h, Int.max_eq_right (by omega)]
      congr 1
      omega
  · rw [if_neg h3]
    refine ⟨⟨fun _ => by omega, fun _ => ⟨_, rfl⟩⟩, fun d h => ?_⟩
    rw [e _ _ h, Int.max_eq_left (by omega)]
    rfl

/-- C44: the last second that can be read, and the number of the second after it, with which
loading a file panics. -/
theorem C44_last : Date.ofDouble ⟨0x41973ce723fff9ef#64⟩ = .ok (8212475865599 * Date.second) ∧
    Date.ofDouble ⟨0x41973ce723fffcf7#64⟩ = .error .panic := by decide +kernel

/-- C44: headers whose four dates are in that range meet the condition of the header theorem
C19_header. -/
theorem C44_header_readable (r : Header)
    (h : ∀ i, i ∈ [122, 123, 124, 125] → ∀ d : Int, HEq (r i) d →
      0 ≤ d ∧ d < 2 ^ 38 * Date.second) : r.DatesReadable := by
  have key : ∀ d : Int, 0 ≤ d ∧ d < 2 ^ 38 * Date.second →
      ∃ d', Date.ofDouble (Date.asDouble d) = .ok d' := by
    intro d hd
    obtain ⟨d', hd', _⟩ := C44_error d hd.1 hd.2
    exact ⟨d', hd'⟩
  exact ⟨key _ (h 122 (by simp) _ HEq.rfl), key _ (h 123 (by simp) _ HEq.rfl),
    key _ (h 124 (by simp) _ HEq.rfl), key _ (h 125 (by simp) _ HEq.rfl)⟩

end Dxf
