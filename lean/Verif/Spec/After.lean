import Verif.Model.Bytes

/-! What C66 says about the end of a file. -/

namespace Dxf

/-- The pair that marks the end of a file. -/
def CodePair.IsEof (p : CodePair) : Prop := p.code = 0 ∧ p.value = .str str!"EOF"

/-- The last of the pairs is the mark. -/
def LastIsEof (items : List Item) : Prop := ∃ u e, items = u ++ [some (.ok e)] ∧ e.IsEof

/-- The last pair of a file is the mark, in the encoding of the caller and in UTF-8. -/
def EndsMarked (enc : Enc) (file : List Byte) : Prop :=
  ∃ main alt, fileItems enc file = .ok (some (main, alt)) ∧ LastIsEof main ∧ LastIsEof alt

/-- The last byte is that of a line end. -/
def EndsWithLine (file : List Byte) : Prop := ∃ c, file = c ++ [0x0A#8]

end Dxf
