import Verif.Model.File

/-! Streams of pairs for which loading does not panic. -/

namespace Dxf

/-- `p` is a value of the header variable `name`: it comes after the pair `9/name`, with no pair
of code 0 or 9 between them. -/
def ValueOf (s : Stream) (name : Str) (p : CodePair) : Prop :=
  ∃ before n between after,
    s = before ++ some (.ok n) :: (between ++ some (.ok p) :: after) ∧
    n.code = 9 ∧ n.value = .str name ∧
    ∀ q, some (.ok q) ∈ between → q.code ≠ 0 ∧ q.code ≠ 9

/-- `q` may belong to an item (an object or an entry of a table) that starts with the pair
`0/type`: it comes after that pair, and there is no pair with code 0 between them, unless there is
a group of extension data or extended data, of which the end is not looked for. -/
def InItem (s : Stream) (type : Str) (between : Stream) (q : CodePair) : Prop :=
  ∃ before p after,
    s = before ++ some (.ok p) :: (between ++ some (.ok q) :: after) ∧
    p.code = 0 ∧ p.value = .str type ∧
    ((∀ x, some (.ok x) ∈ between → x.code ≠ 0) ∨
      ∃ x, some (.ok x) ∈ between ∧ (x.code = 102 ∨ x.code = 1001))

/-- The data of the pairs with code 310, up to the next pair with code 0. -/
def pictureData : Stream → List Byte
  | some (.ok p) :: s =>
    if p.code = 0 then []
    else if p.code = 310 then
      match p.value with
      | .binary b => b ++ pictureData s
      | _ => []
    else pictureData s
  | _ => []

/-- The variables of the header that hold dates. -/
def dateVariables : List Str :=
  [str!"$TDCREATE", str!"$TDUCREATE", str!"$TDUPDATE", str!"$TDUUPDATE"]

/-- A number of days for which there is a date: not infinite, and at most the last day of the
calendar (97466824 days after the start of the Julian period), or NaN. -/
def DayNumber (f : F64) : Prop :=
  f.isInf = false ∧ (f.isFinite = true → f.sunits.natAbs ≤ 97466824 * F64.oneUnits)

/-- The bound on the numbers of sun studies.  A date is given by a day and a number of seconds that
is added to it; both have code 90. -/
def lastSunDay : Int := 97000000

/-- None of the causes of a panic is in the stream; `room` is the number of handles that are to be
given out. -/
structure Harmless (room : Nat) (s : Stream) : Prop where
  /-- The reader of the pairs does not panic. -/
  items : some (.error .panic) ∉ s
  /-- No colour of a layer is -32768. -/
  colors : ∀ b q, InItem s str!"LAYER" b q → q.code = 62 → 
    q.value ≠ .short (-32768) ∧ q.value ≠ .boolean (-32768)
  /-- Data tables do not have a second number of columns (or rows). -/
  tables : ∀ b q, InItem s str!"DATATABLE" b q → q.code = 90 ∨ q.code = 91 →
    ∀ x, some (.ok x) ∈ b → x.code ≠ q.code
  /-- The dates of layer indexes are not after the end of the calendar. -/
  layerIndexes : ∀ b q f, InItem s str!"LAYER_INDEX" b q → q.code = 40 → q.value = .double f →
    DayNumber f
  /-- The dates of spatial indexes are not after the end of the calendar. -/
  spatialIndexes : ∀ b q f, InItem s str!"SPATIAL_INDEX" b q → q.code = 40 → q.value = .double f →
    DayNumber f
  /-- The days of sun studies are not after the end of the calendar. -/
  studies : ∀ b q n, InItem s str!"SUNSTUDY" b q → q.code = 90 → q.value = .integer n →
    n.toInt ≤ lastSunDay
  /-- The dates in the header are not after the end of the calendar. -/
  dates : ∀ name ∈ dateVariables, ∀ q f, ValueOf s name q → q.value = .double f → DayNumber f
  /-- There is room for more handles after the next available one. -/
  handles : ∀ q h, ValueOf s str!"$HANDSEED" q → q.asHandle = .ok h → h.toNat + room < 2 ^ 64
  /-- The size in front of a thumbnail is not negative. -/
  pictures : ∀ before p after b, s = before ++ some (.ok p) :: after →
    p.code = 2 → p.value = .str str!"THUMBNAILIMAGE" →
    (pictureData after)[3]? = some b → b.toNat < 128

end Dxf
