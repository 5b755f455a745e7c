import Verif.Spec.Insert

/-! Vocabulary for sections and tables that are given in several parts. -/

namespace Dxf

/-- The marks between two parts of a section: the end of the first and the begin of the second. -/
structure BetweenParts (name : Str) (cl op nm : CodePair) : Prop where
  cl : cl.code = 0 ∧ cl.value = .str str!"ENDSEC"
  op : op.code = 0 ∧ op.value = .str str!"SECTION"
  nm : nm.code = 2 ∧ nm.value = .str name

/-- The marks between two parts of a table. -/
structure BetweenTables (name : Str) (cl op nm : CodePair) : Prop where
  cl : cl.code = 0 ∧ cl.value = .str str!"ENDTAB"
  op : op.code = 0 ∧ op.value = .str str!"TABLE"
  nm : nm.code = 2 ∧ nm.value = .str name

/-- None of the entities `ys` belongs to the last one of `xs`: they do not begin with a vertex, an
attribute or the end of such a sequence, or with the text of an attribute. -/
def Separate (xs ys : List Flat) : Prop :=
  ∀ y ∈ ys.head?, y.kind ≠ .vertex ∧ y.kind ≠ .attribute ∧ y.kind ≠ .seqend ∧
    (y.kind = .mText → ∀ x ∈ xs.getLast?, x.kind ≠ .attribute ∧ x.kind ≠ .attributeDefinition)

end Dxf
