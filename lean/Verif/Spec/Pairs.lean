import Verif.Model.TextCodec

/-! Specification vocabulary for code-pair streams. -/

namespace Dxf

/-- The pair's value has the type its code demands. -/
def CodePair.WellTyped (p : CodePair) : Prop := ExpectedType.new p.code = some p.value.type

/-- `y` is the double read from the text written for `x`. -/
def ReadsAs (x y : F64) : Prop := ∀ off, parseF64 (formatF64 x) off = .ok y

/-- Same value, except that a double may have been rounded by its 12-decimal text. -/
def SameValue (v w : CodePairValue) : Prop :=
  v = w ∨ ∃ x y, v = .double x ∧ w = .double y ∧ ReadsAs x y

/-- Same code and same value (up to the text rounding of doubles). -/
def SamePair (p q : CodePair) : Prop := p.code = q.code ∧ SameValue p.value q.value

/-- Strings that a text file can carry.  Up to R2004 (`old`): no backslash, no U+001C,
nothing beyond the Basic Multilingual Plane; from R2007: not starting with a byte order
mark. -/
def TextStr (old : Bool) (s : Str) : Prop :=
  if old then ∀ c ∈ s, c ≠ '\\' ∧ c.toNat ≠ 0x1C ∧ c.toNat < 0x10000
  else s.head? ≠ some (Char.ofNat 0xFEFF)

/-- Values that a text file can carry. -/
def TextValue (old : Bool) : CodePairValue → Prop
  | .str s => TextStr old s
  | _ => True

/-- The items of a stream are exactly these pairs: no error, no premature end. -/
def Yields (items : List Item) (ps : List CodePair) : Prop := items = ps.map fun p => some (.ok p)

/-- Values that a binary file can carry. -/
def BinOk (wide : Bool) : CodePairValue → Prop
  | .boolean s => wide = true → s.toNat < 256
  | .str s => ∀ c ∈ s, c.toNat < 128
  | .binary b => b.length < 256
  | _ => True

/-- Same code and value; the offset may differ. -/
def EqPair (p q : CodePair) : Prop := p.code = q.code ∧ p.value = q.value

/-- The first pair is one from which the reader gets the code width right. -/
def FirstOk (wide : Bool) (p : CodePair) : Prop :=
  if wide then p.code = 0 else p.code ≠ 0 ∨ p.value ≠ .str []

instance (old : Bool) (s : Str) : Decidable (TextStr old s) := by unfold TextStr; infer_instance
instance (old : Bool) (v : CodePairValue) : Decidable (TextValue old v) := by
  cases v <;> unfold TextValue <;> infer_instance
instance (p : CodePair) : Decidable p.WellTyped := by unfold CodePair.WellTyped; infer_instance

end Dxf
