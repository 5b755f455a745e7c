import Verif.Spec.Bitmap
import Verif.Lemmas.Tables
import Mathlib.Data.List.Forall2

/-! Lemmas about the thumbnail. -/

namespace Dxf

open Bitmap

namespace Thumbnail

theorem word_toNat (b0 b1 b2 b3 : Byte) :
    (b0.zeroExtend 32 + (b1.zeroExtend 32 <<< 8) + (b2.zeroExtend 32 <<< 16) +
      (b3.zeroExtend 32 <<< 24)).toNat = number [b0, b1, b2, b3] := by
  have h0 := b0.isLt
  have h1 := b1.isLt
  have h2 := b2.isLt
  have h3 := b3.isLt
  simp only [number, BitVec.toNat_add, BitVec.toNat_shiftLeft, BitVec.zeroExtend,
    BitVec.toNat_setWidth, Nat.shiftLeft_eq]
  omega

theorem drop_four {data : List Byte} {i : Nat} (h : i + 4 ≤ data.length) :
    ∃ b0 b1 b2 b3 r, data.drop i = b0 :: b1 :: b2 :: b3 :: r := by
  have hl : (data.drop i).length = data.length - i := by simp
  match hd : data.drop i with
  | [] => rw [hd] at hl; simp at hl; omega
  | [_] => rw [hd] at hl; simp at hl; omega
  | [_, _] => rw [hd] at hl; simp at hl; omega
  | [_, _, _] => rw [hd] at hl; simp at hl; omega
  | b0 :: b1 :: b2 :: b3 :: r => exact ⟨_, _, _, _, _, rfl⟩

theorem readWord_ok {data : List Byte} {i : Nat} (h : i + 4 ≤ data.length) :
    ∃ w, readWord data i = .ok w ∧ w.toNat = wordAt data i := by
  obtain ⟨b0, b1, b2, b3, r, hd⟩ := drop_four h
  refine ⟨_, by unfold readWord; rw [hd], ?_⟩
  unfold wordAt
  rw [hd]
  exact word_toNat b0 b1 b2 b3

theorem readWord_short {data : List Byte} {i : Nat} (h : data.length < i + 4) :
    readWord data i = .error .unexpectedEndOfInput := by
  have hl : (data.drop i).length = data.length - i := by simp
  unfold readWord
  split
  · rename_i hd
    rw [hd] at hl
    simp at hl
    omega
  · rfl

theorem wordAt_lt (data : List Byte) (i : Nat) : wordAt data i < 2 ^ 32 := by
  unfold wordAt
  match (data.drop i).take 4, List.length_take_le 4 (data.drop i) with
  | [], _ => simp [number]
  | [a], _ => have := a.isLt; simp only [number]; omega
  | [a, b], _ => have := a.isLt; have := b.isLt; simp only [number]; omega
  | [a, b, c], _ => have := a.isLt; have := b.isLt; have := c.isLt; simp only [number]; omega
  | [a, b, c, d], _ =>
    have := a.isLt; have := b.isLt; have := c.isLt; have := d.isLt; simp only [number]; omega
  | _ :: _ :: _ :: _ :: _ :: _, h => simp at h

theorem bytes_word (n : Nat) :
    [(BitVec.ofNat 32 n).truncate 8, ((BitVec.ofNat 32 n) >>> 8).truncate 8,
      ((BitVec.ofNat 32 n) >>> 16).truncate 8, ((BitVec.ofNat 32 n) >>> 24).truncate 8] =
    word n := by
  unfold word
  have h (k : Nat) (hk : k ≤ 24) :
      ((BitVec.ofNat 32 n) >>> k).truncate 8 = BitVec.ofNat 8 (n / 2 ^ k) := by
    apply BitVec.eq_of_toNat_eq
    simp only [BitVec.truncate_eq_setWidth, BitVec.toNat_setWidth, BitVec.toNat_ushiftRight,
      BitVec.toNat_ofNat, Nat.shiftRight_eq_div_pow]
    rw [show (2 : Nat) ^ 32 = 2 ^ k * 2 ^ (32 - k) by rw [← Nat.pow_add]; congr 1; omega,
      Nat.mod_mul_right_div_self,
      show (2 : Nat) ^ (32 - k) = 2 ^ 8 * 2 ^ (24 - k) by rw [← Nat.pow_add]; congr 1; omega,
      Nat.mod_mul_right_mod]
  have h0 := h 0 (by omega)
  have h1 := h 8 (by omega)
  have h2 := h 16 (by omega)
  have h3 := h 24 (by omega)
  simp only [Nat.pow_zero, Nat.div_one, BitVec.ushiftRight_zero] at h0
  rw [h0, h1, h2, h3]
  rfl

theorem setWord_ok {data : List Byte} {i : Nat} (n : Nat) (h : i + 4 ≤ data.length) :
    setWord data i (BitVec.ofNat 32 n) = .ok (data.take i ++ word n ++ data.drop (i + 4)) := by
  unfold setWord
  rw [if_neg (by omega), bytes_word]

/-- The size of the second header as `usize`. -/
theorem sext_toNat (w : BitVec 32) :
    (w.signExtend 64).toNat = if w.toNat < 2 ^ 31 then w.toNat else w.toNat + (2 ^ 64 - 2 ^ 32) := by
  rw [BitVec.toNat_signExtend]
  have hw := w.isLt
  by_cases h : w.toNat < 2 ^ 31
  · rw [if_pos h, if_neg (by simp [BitVec.msb_eq_decide]; omega)]
    simp
    omega
  · rw [if_neg h, if_pos (by simp [BitVec.msb_eq_decide]; omega)]
    simp
    omega

/-- The file with another offset of the pixels. -/
def withOffset (data : List Byte) (n : Nat) : List Byte :=
  data.take 10 ++ word n ++ data.drop 14

theorem word_congr {m n : Nat} (h : m % 2 ^ 32 = n % 2 ^ 32) : word m = word n := by
  rw [← bytes_word, ← bytes_word]
  have : BitVec.ofNat 32 m = BitVec.ofNat 32 n := BitVec.eq_of_toNat_eq (by simpa using h)
  rw [this]

/-- All that `setOffset` does. -/
theorem setOffset_eq (data : List Byte) :
    setOffset data =
      if data.length < 18 then .error .unexpectedEndOfInput
      else if headerSize data < 36 then .ok none
      else if data.length < 50 then .error .unexpectedEndOfInput
      else if 2 ^ 31 ≤ headerSize data ∧ 2 ^ 32 ≤ 14 + headerSize data + 4 * colorsUsed data then
        .error .panic
      else .ok (some (withOffset data (14 + headerSize data + 4 * colorsUsed data))) := by
  unfold setOffset
  by_cases h1 : data.length < 18
  · rw [if_pos h1, readWord_short (i := 14) h1]
    rfl
  rw [if_neg h1]
  obtain ⟨w, hw, hs⟩ := readWord_ok (data := data) (i := 14) (by omega)
  rw [hw]
  simp only [bind, Except.bind, sext_toNat, hs, pure, Except.pure]
  change _ = if headerSize data < 36 then _ else _
  have hlt := wordAt_lt data 14
  have hc := wordAt_lt data 46
  by_cases h2 : headerSize data < 36
  · rw [if_pos h2]
    have h2' : wordAt data 14 < 36 := h2
    rw [if_neg]
    rw [if_pos (by omega)]
    omega
  rw [if_neg h2]
  have h2' : ¬ wordAt data 14 < 36 := h2
  rw [if_pos (by split <;> omega)]
  by_cases h3 : data.length < 50
  · rw [if_pos h3, readWord_short (i := 46) h3]
  rw [if_neg h3]
  obtain ⟨c, hc', hn⟩ := readWord_ok (data := data) (i := 46) (by omega)
  simp only [hc', hn]
  by_cases h4 : 2 ^ 31 ≤ headerSize data ∧ 2 ^ 32 ≤ 14 + headerSize data + 4 * colorsUsed data
  · rw [if_pos h4]
    have h5 : 2 ^ 31 ≤ wordAt data 14 := h4.1
    have h6 : 2 ^ 32 ≤ 14 + wordAt data 14 + 4 * wordAt data 46 := h4.2
    rw [if_pos]
    rw [if_neg (by omega)]
    omega
  · rw [if_neg h4]
    have h5 : ¬ (2 ^ 31 ≤ wordAt data 14 ∧ 2 ^ 32 ≤ 14 + wordAt data 14 + 4 * wordAt data 46) := h4
    rw [if_neg (by split <;> omega), setWord_ok _ (by omega)]
    simp only [withOffset, headerSize, colorsUsed]
    rw [word_congr (n := 14 + wordAt data 14 + 4 * wordAt data 46)]
    split <;> omega

/-! ### The pairs of the data -/

/-- Pairs that hold the given pieces of data. -/
def Holds (p : CodePair) (bs : List Byte) : Prop := p.code = 310 ∧ p.value = .binary bs

theorem readChunks_ok {ps : List CodePair} {pieces : List (List Byte)}
    (h : List.Forall₂ Holds ps pieces) {rest : Stream} (hr : StartsZero rest) {fuel : Nat}
    (hf : ps.length < fuel) :
    readChunks fuel (toStream ps ++ rest) = (.ok pieces.flatten, rest) := by
  induction h generalizing fuel with
  | nil =>
    obtain ⟨q, s, rfl, hq⟩ := hr
    obtain ⟨f, rfl⟩ : ∃ f, fuel = f + 1 := ⟨fuel - 1, by simp at hf; omega⟩
    rw [readChunks]
    refine (Rd.bind_ok (Rd.next?_cons (by simp [hq]) s)).trans ?_
    change (if q.code = 0 then _ else _ : Rd _) s = _
    rw [if_pos hq]
    rfl
  | @cons p bs ps pieces hp _ ih =>
    obtain ⟨f, rfl⟩ : ∃ f, fuel = f + 1 := ⟨fuel - 1, by simp at hf; omega⟩
    rw [readChunks]
    refine (Rd.bind_ok (Rd.next?_cons (by simp [hp.1]) _)).trans ?_
    change (if p.code = 0 then _ else _ : Rd _) _ = _
    rw [if_neg (by simp [hp.1]), if_pos hp.1]
    refine (Rd.bind_ok (m := Rd.lift p.assertBinary) (a := bs)
      (by unfold CodePair.assertBinary; rw [hp.2]; rfl)).trans ?_
    exact (Rd.bind_ok (ih (by simp at hf; omega))).trans rfl

theorem readBytes_ok {ps : List CodePair} {pieces : List (List Byte)} {q : CodePair} {n : I32}
    (hq : q.code = 90) (hn : q.value = .integer n)
    (h : List.Forall₂ Holds ps pieces) {rest : Stream} (hr : StartsZero rest) :
    readBytes (some (.ok q) :: (toStream ps ++ rest)) =
      (.ok (some (Bitmap.fileHeader (14 + pieces.flatten.length) 0 ++ pieces.flatten)), rest) := by
  unfold readBytes
  refine (Rd.bind_ok (Rd.next?_cons (by simp [hq]) _)).trans ?_
  change (if q.code = 0 then _ else _ : Rd _) _ = _
  rw [if_neg (by simp [hq]), if_pos hq]
  refine (Rd.bind_ok (m := Rd.lift q.assertI32) (a := n)
    (by unfold CodePair.assertI32; rw [hn]; rfl)).trans ?_
  refine (Rd.bind_ok (m := Rd.withFuel readChunks) (a := pieces.flatten) (s' := rest)
    (readChunks_ok h hr (by simp; omega))).trans ?_
  refine (Rd.bind_ok (m := Rd.lift _) ?_).trans rfl
  rw [setWord_ok _ (by simp [Thumbnail.fileHeader])]
  have hl : (Thumbnail.fileHeader ++ pieces.flatten).length = 14 + pieces.flatten.length := by
    rw [List.length_append]
    rfl
  rw [hl]
  rfl

theorem chunks_flatten (fuel : Nat) (data : List Byte) (h : data.length ≤ fuel) :
    (chunks fuel data).flatten = data := by
  induction fuel generalizing data with
  | zero =>
    have : data = [] := List.length_eq_zero_iff.mp (by omega)
    subst this
    rfl
  | succ f ih =>
    cases data with
    | nil => rfl
    | cons b bs =>
      rw [chunks, List.flatten_cons, ih _ (by simp at h ⊢; omega)]
      exact List.take_append_drop ..

theorem chunks_length (fuel : Nat) (data : List Byte) :
    ∀ c ∈ chunks fuel data, 0 < c.length ∧ c.length ≤ 128 := by
  induction fuel generalizing data with
  | zero => simp [chunks]
  | succ f ih =>
    cases data with
    | nil => simp [chunks]
    | cons b bs =>
      intro c hc
      rw [chunks, List.mem_cons] at hc
      rcases hc with rfl | hc
      · simp
      · exact ih _ c hc

end Thumbnail

end Dxf
