import Verif.Spec.Insert

/-! Vocabulary for pairs that stand in another order. -/

namespace Dxf

/-- The same elements in another order.  Elements with the same key are not told apart from each
other by it, so they stand in the same order among themselves. -/
def Reordered {π κ : Type} [DecidableEq κ] (key : π → κ) (ps qs : List π) : Prop :=
  ∀ c, ps.filter (fun p => decide (key p = c)) = qs.filter (fun p => decide (key p = c))

/-- The codes of the fields of an item: not those of the start of the next item, of a group, of
extended data and of comments. -/
def FieldCode (c : Int) : Prop := c ≠ 0 ∧ c ≠ 102 ∧ c ≠ 999 ∧ c < 1000

/-- The codes of an entity that decide what other codes mean, or whose meaning depends on what was
read before them. -/
def EName.fixed : EName → List Int
  | .attribute => [70, 100, 280]
  | .attributeDefinition => [70, 100, 280]
  | .mText => [50, 75]
  | .dimension => [70, 100]
  | _ => []

/-- The codes of an entity that must stay in their order: the vertices of a light-weight polyline
begin with 10. -/
def EName.clashes : EName → List (Int × Int)
  | .lwPolyline => [(10, 20), (10, 40), (10, 41), (10, 42), (10, 91)]
  | _ => []

/-- The codes of an object that decide what other codes mean, or whose meaning depends on what was
read before them. -/
def OName.fixed : OName → List Int
  | .layout => [100]
  | .material => [3, 42, 72, 73, 74, 75, 90, 270, 271, 272, 273, 465]
  | .mLineStyle => [71]
  | .sortentsTable => [5, 100, 330, 331]
  | .dictionary => [3, 350, 360]
  | .dictionaryWithDefault => [3, 350, 360]
  | .dataTable => [1, 2, 3, 10, 11, 20, 21, 30, 31, 40, 71, 90, 91, 92, 93, 330, 331, 340, 350, 360]
  | .spatialFilter => [10, 20, 30, 40]
  | .sunStudy => [73, 90, 290]
  | _ => []

/-- The codes of a table entry that must stay in their order: both are stored in one field. -/
def TName.clashes : TName → List (Int × Int)
  | .dimStyle => [(6, 343), (7, 344), (75, 281), (76, 282), (287, 289)]
  | .viewPort => [(40, 45)]
  | _ => []

/-- A header variable: its name and its values. -/
structure Variable where
  mark : CodePair
  name : Str
  values : List CodePair

/-- The pairs of a variable. -/
def Variable.pairs (v : Variable) : List CodePair := v.mark :: v.values

/-- It is one variable. -/
def Variable.Proper (v : Variable) : Prop :=
  v.mark.code = 9 ∧ v.mark.value = .str v.name ∧
    ∀ p ∈ v.values, p.code ≠ 0 ∧ p.code ≠ 9 ∧ p.code ≠ 999

end Dxf
