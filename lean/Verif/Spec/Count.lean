import Verif.Model.Objects

/-! Vocabulary for the numbers in a file that announce how much of something follows. -/

namespace Dxf

/-- How many pairs with code `x` follow within the same item: up to the next pair with code 0. -/
def follow (x : Int) (ps : List CodePair) : Nat :=
  ((ps.takeWhile fun p => decide (p.code ≠ 0)).filter fun p => decide (p.code = x)).length

/-- The value of a pair is the whole number `n`. -/
def Says (q : CodePair) (n : Nat) : Prop :=
  match q.value with
  | .short i => i.toInt = n
  | .integer i => i.toInt = n
  | .double f => f = F64.ofInt n
  | _ => False

/-- In `ps` a pair with code `c` announces how often code `x` follows, `more` times not counted.
The number is the true one if it is below `limit`, and a wrong one otherwise. -/
def Announces (ps : List CodePair) (c x : Int) (more limit : Nat) : Prop :=
  ∃ a q b n, ps = a ++ q :: b ∧ q.code = c ∧ follow x b = n + more ∧
    (n < limit → Says q n) ∧ (limit ≤ n → ¬ Says q n)

/-- The numbers in the pairs of an entity: their code, the code that follows as often, how many of
these do not count (the starting point of a multiline), and the limit of the type. -/
def EName.announced (k : EName) (v : Version) : List (Int × Int × Nat × Nat) :=
  match k with
  | .attribute | .attributeDefinition => if .r2007 ≤ v then [(70, 340, 0, 2 ^ 15)] else []
  | .image | .wipeout => [(91, 14, 0, 2 ^ 31)]
  | .leader => [(76, 10, 0, 2 ^ 15)]
  | .lwPolyline => [(90, 10, 0, 2 ^ 31)]
  | .mLine => [(72, 10, 1, 2 ^ 15), (74, 41, 0, 2 ^ 15), (75, 42, 0, 2 ^ 15)]
  | .section => [(92, 11, 0, 2 ^ 31), (93, 12, 0, 2 ^ 31)]
  | .spline => [(72, 40, 0, 2 ^ 15), (73, 10, 0, 2 ^ 15), (74, 11, 0, 2 ^ 15)]
  | _ => []

/-- The same for objects. -/
def OName.announced (k : OName) (v : Version) : List (Int × Int × Nat × Nat) :=
  match k with
  | .field => [(90, 360, 0, 2 ^ 31), (97, if .r2010 ≤ v then 331 else 330, 0, 2 ^ 31),
      (93, 6, 0, 2 ^ 31)]
  | .geoData => [(93, 13, 0, 2 ^ 31), (96, 97, 0, 2 ^ 31)]
  | .lightList => [(90, 5, 0, 2 ^ 31)]
  | .mLineStyle => [(71, 49, 0, 2 ^ 15)]
  | .sectionManager => [(90, 330, 0, 2 ^ 31)]
  | .sectionSettings => [(91, 331, 0, 2 ^ 31)]
  | .spatialFilter => [(70, 10, 0, 2 ^ 15)]
  | .sunStudy => [(91, 90, 0, 2 ^ 31), (73, 290, 0, 2 ^ 15)]
  | _ => []

end Dxf
