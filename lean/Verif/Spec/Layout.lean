import Verif.Model.Bytes

/-! The layout of a text file: line ends, spaces around codes and numbers, a byte order mark (C62). -/

namespace Dxf

/-- A space or a tab. -/
def Blank (b : Byte) : Prop := b = 0x20#8 ∨ b = 0x09#8

/-- A line feed, which a carriage return may precede. -/
def LineEnd (e : List Byte) : Prop := e = [0x0A#8] ∨ e = [0x0D#8, 0x0A#8]

/-- The bytes of a line that holds text: there is no line feed inside, no carriage return at the end,
and no UTF-16 byte order mark at the beginning. -/
structure TextLine (v : List Byte) : Prop where
  noLf : 0x0A#8 ∉ v
  noCr : v.getLast? ≠ some 0x0D#8
  noBe : ¬ [0xFE#8, 0xFF#8] <+: v
  noLe : ¬ [0xFF#8, 0xFE#8] <+: v

/-- The two lines have the same visible ASCII characters, with any spaces and tabs around them. -/
def Repadded (a b : List Byte) : Prop :=
  ∃ l l' t r r' : List Byte, a = l ++ t ++ r ∧ b = l' ++ t ++ r' ∧
    (∀ x ∈ l ++ l' ++ r ++ r', Blank x) ∧ ∀ x ∈ t, 0x21 ≤ x.toNat ∧ x.toNat < 0x7F

/-- The decimal numeral of a group code. -/
def numeral (n : Int) : List Byte := (fmtInt n).map fun c => byte c.toNat

/-- The value lines of two files after the code `n`: the same text or, if the code is that of a
number, the same number with other spaces around it. -/
def SameLine (n : Int) (v v' : List Byte) : Prop :=
  TextLine v ∧ v' = v ∨
  (∃ ty, ExpectedType.new n = some ty ∧ ty ≠ .str ∧ ty ≠ .binary) ∧ Repadded v v'

/-- Two text files with the same pairs in different layouts: the line ends and the spaces around
codes and numbers may differ, and the last line may have no line end. -/
inductive Relaid : List Byte → List Byte → Prop
  | nil : Relaid [] []
  | pair {n : Int} {c c' v v' e e' w w' rest rest' : List Byte} :
      -2 ^ 31 ≤ n → n < 2 ^ 31 → Repadded (numeral n) c → Repadded (numeral n) c' →
      SameLine n v v' → LineEnd e → LineEnd e' → LineEnd w → LineEnd w' → Relaid rest rest' →
      Relaid (c ++ (e ++ (v ++ (w ++ rest)))) (c' ++ (e' ++ (v' ++ (w' ++ rest'))))
  | last {n : Int} {c c' v v' e e' w w' : List Byte} :
      -2 ^ 31 ≤ n → n < 2 ^ 31 → Repadded (numeral n) c → Repadded (numeral n) c' →
      SameLine n v v' → LineEnd e → LineEnd e' → LineEnd w ∨ w = [] → LineEnd w' ∨ w' = [] →
      Relaid (c ++ (e ++ (v ++ (w ++ [])))) (c' ++ (e' ++ (v' ++ (w' ++ []))))

/-- Nothing or the UTF-8 byte order mark. -/
def Mark (b : List Byte) : Prop := b = [] ∨ b = [0xEF#8, 0xBB#8, 0xBF#8]

end Dxf
