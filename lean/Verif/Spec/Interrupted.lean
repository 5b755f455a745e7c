import Verif.Spec.Brackets
import Verif.Spec.Pairs
import Verif.Model.Bytes

/-! Places at which writing a file can be interrupted. -/

namespace Dxf

/-- When these pairs have been written no section is open: nothing has been written, or the last
pair is the end of a section or the end of the file. -/
def BetweenSections (done : List CodePair) : Prop :=
  done = [] ∨ ∃ a p, done = a ++ [p] ∧ p.code = 0 ∧
    (p.value = .str str!"ENDSEC" ∨ p.value = .str str!"EOF")

/-- A word of printable ASCII characters none of which is escaped. -/
def PlainWord (w : Str) : Prop := ∀ c ∈ w, 32 < c.toNat ∧ c.toNat < 127 ∧ c ≠ '^' ∧ c ≠ '\\'

/-- Pairs with known codes, and after code 0 plain words that do not go on after `ENDSEC`. -/
def Wordly (ps : List CodePair) : Prop :=
  ∀ p ∈ ps, (ExpectedType.new p.code).isSome = true ∧
    (p.code = 0 → ∃ w, p.value = .str w ∧ PlainWord w ∧ (str!"ENDSEC" <+: w → w = str!"ENDSEC"))

end Dxf
