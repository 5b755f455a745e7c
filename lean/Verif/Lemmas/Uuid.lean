import Verif.Model.Uuid
import Verif.Lemmas.Hex

/-! Identifiers survive being written and read. -/

namespace Dxf

theorem hexVal_lower_table : ∀ n, n < 16 → hexVal? (asciiLower (hexDigit n)) = some n ∧
    asciiLower (hexDigit n) ≠ '{' := by decide

theorem uuid_hex_length (u : Uuid) : u.hex.length = 32 := by
  have h : (fmtHex u.toNat).length ≤ 32 := by
    have := digits_length_le (b := 16) (by omega) (n := u.toNat) (w := 32) (by omega)
      (by have := u.isLt; norm_num at this ⊢; exact this)
    simpa [fmtHex] using this
  simp [Uuid.hex, padLeft]
  omega

theorem uuid_hex_val (u : Uuid) : digitsVal? 16 hexVal? 0 u.hex = some u.toNat := by
  have h : (fmtHex u.toNat).map asciiLower = (digits 16 u.toNat).map fun n => asciiLower (hexDigit n) := by
    simp [fmtHex]
  rw [Uuid.hex, padLeft, digitsVal_zeros _ _ _ (by decide), h]
  have hd := digits_lt (b := 16) (by omega) u.toNat
  have hg : ∀ (l : List Nat) (acc : Nat), (∀ d ∈ l, d < 16) →
      digitsVal? 16 hexVal? acc (l.map fun n => asciiLower (hexDigit n)) =
        digitsVal? 16 hexVal? acc (l.map hexDigit) := by
    intro l
    induction l with
    | nil => intros; rfl
    | cons d l ih =>
      intro acc hl
      have h1 := (hexVal_lower_table d (hl d List.mem_cons_self)).1
      have h2 := hexVal_hexDigit (hl d List.mem_cons_self)
      simp only [List.map_cons, digitsVal?, h1, h2]
      exact ih _ fun x hx => hl x (List.mem_cons_of_mem _ hx)
  rw [hg _ _ hd]
  exact digitsVal_fmtHex u.toNat

theorem uuid_unhyphen (h : Str) (hl : h.length = 32) :
    (Uuid.hyphen h).length = 36 ∧ (Uuid.hyphen h).head? = h.head? ∧
    Uuid.unhyphen (Uuid.hyphen h) = some h := by
  match h, hl with
  | [a0, a1, a2, a3, a4, a5, a6, a7, a8, a9, a10, a11, a12, a13, a14, a15, a16, a17, a18, a19, a20, a21, a22, a23, a24, a25, a26, a27, a28, a29, a30, a31], _ => exact ⟨rfl, rfl, by simp [Uuid.hyphen, Uuid.unhyphen]⟩

theorem uuid_ofText_display (u : Uuid) : Uuid.ofText u.display = u := by
  have hl := uuid_hex_length u
  obtain ⟨h1, h2, h3⟩ := uuid_unhyphen u.hex hl
  have hv := uuid_hex_val u
  have hhead : (Uuid.hyphen u.hex).head? ≠ some '{' := by
    rw [h2]
    intro hh
    cases hu : u.hex with
    | nil => rw [hu] at hh; cases hh
    | cons c cs =>
      rw [hu] at hh hv
      cases hh
      simp [digitsVal?, hexVal?] at hv
  unfold Uuid.ofText Uuid.display
  simp only [hhead, false_and, if_false]
  unfold Uuid.parse?
  simp only [h1, h3]
  change (match (digitsVal? 16 hexVal? 0 u.hex).map (BitVec.ofNat 128) with
    | some u => u
    | none => 0#128) = u
  rw [hv]
  simp

end Dxf
