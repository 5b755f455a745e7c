import Verif.Lemmas.Count
import Verif.Spec.Tables

/-! C69: the numbers in a saved file that announce how much follows. -/

namespace Dxf

/-- C69: every number listed in `EName.announced` that is written for an entity is the number of
times the announced code follows in the entity, as long as the list is not longer than the type of
the number allows; beyond that limit it is wrong. -/
theorem C69_entity (e : Entity) (v : Version) (wh : Bool) (hv : e.kind.supported v = true)
    {c x : Int} {more limit : Nat} (h : (c, x, more, limit) ∈ e.kind.announced v) :
    Announces (e.pairs v wh) c x more limit := entity_announced e v wh hv h

/-- C69 for objects. -/
theorem C69_object {o : Object} {v : Version} {ps : List CodePair}
    (hv : o.kind.supported v = true) (hp : o.pairs v = .ok ps)
    {c x : Int} {more limit : Nat} (h : (c, x, more, limit) ∈ o.kind.announced v) :
    Announces ps c x more limit := object_announced hv hp h

/-- C69 for the columns of a text: their number is written as a double with the code of the heights
themselves. -/
theorem C69_columns (n : Nat) (e : Entry EName.mText.decls) (y : Extra) (v : Version) (wh : Bool)
    (hv : EName.mText.supported v = true) :
    ∃ a b, Entity.pairs v wh ⟨⟨.mText, n, e⟩, y⟩ =
        a ++ CodePair.newF64 50 (F64.ofInt (List.length (e.fields 45 : List F64) : Nat)) :: b ∧
      follow 50 b = List.length (e.fields 45 : List F64) :=
  entity_says ⟨⟨.mText, n, e⟩, y⟩ v wh hv (pre := Ent.mTextCmds.take 28)
    (rest := Ent.mTextCmds.drop 29) (more := 0) rfl rfl (by decide) rfl rfl
    ((times_single rfl).trans (times_many _ _ _))

/-- C69 violated: the number of knots of a spline is a short; from 32768 knots on, what is written
is not their number. -/
theorem C69_violated (n : Nat) (e : Entry EName.spline.decls) (y : Extra) (v : Version) (wh : Bool)
    (hv : EName.spline.supported v = true) (hk : 2 ^ 15 ≤ List.length (e.fields 29 : List F64)) :
    ∃ a q b, Entity.pairs v wh ⟨⟨.spline, n, e⟩, y⟩ = a ++ q :: b ∧ q.code = 72 ∧
      follow 40 b = List.length (e.fields 29 : List F64) ∧
      ¬ Says q (List.length (e.fields 29 : List F64)) := by
  obtain ⟨a, b, h1, h2⟩ := entity_says ⟨⟨.spline, n, e⟩, y⟩ v wh hv (pre := Ent.splineCmds.take 4)
    (rest := Ent.splineCmds.drop 5) (x := 40) (more := 0) rfl rfl (by decide) rfl rfl
    ((times_single rfl).trans (times_many _ _ _))
  exact ⟨a, _, b, h1, rfl, h2, (says_short 72 _).2 hk⟩

/-- C69 violated: the data of a macro project is announced, and not one byte of it follows. -/
theorem C69_data_violated {e : Entry OName.vbaProject.decls} {y : OExtra} {v : Version}
    {ps : List CodePair} (hv : OName.vbaProject.supported v = true)
    (hp : Object.pairs v ⟨.vbaProject, { e with fields := vbaPost e.fields }, y⟩ = .ok ps) :
    ∃ a b, ps = a ++ CodePair.newI32 90 (BitVec.ofNat 32
        (List.length (vbaPost e.fields 2 : List Byte))) :: b ∧ follow 310 b = 0 := by
  refine object_says hv hp rfl rfl rfl rfl rfl (pre := Obj.vbaProjectCmds.take 1)
    (rest := Obj.vbaProjectCmds.drop 2) (x := 310) (n := 0) (more := 0) rfl (by decide) rfl rfl
    ((times_single rfl).trans (times_many _ _ _))

/-- C69 violated: the number at the head of a table is always 0. -/
theorem C69_table_violated (K : TableKind) (v : Version) (wh : Bool) (items : List (TableItem K))
    (h : items ≠ []) :
    ∃ a q b, K.pairs v wh items = a ++ q :: (items.flatMap (K.itemPairs v wh) ++ b) ∧
      q.code = 70 ∧ ¬ Says q items.length := by
  refine ⟨[.newStr 0 str!"TABLE", .newStr 2 K.typeString, .newStr 100 str!"AcDbSymbolTable"],
    .newI16 70 0#16, [.newStr 0 str!"ENDTAB"], ?_, rfl, ?_⟩
  · unfold TableKind.pairs
    rw [if_neg (by simpa using h)]
    rfl
  · intro h'
    change (0 : Int) = items.length at h'
    exact h (List.length_eq_zero_iff.mp (by omega))

/-! ### Examples -/

/-- A polyline with three vertices. -/
private def threeVertices : Entity :=
  ⟨⟨.lwPolyline, 0, ⟨Rec.set (Rec.dflt _) 21 ([⟨.zero, .zero, 0, .zero, .zero, .zero⟩,
    ⟨.ofInt 1, .zero, 0, .zero, .zero, .zero⟩, ⟨.ofInt 1, .ofInt 1, 0, .zero, .zero, .zero⟩] :
    List LwVertex), [], []⟩⟩, .dflt⟩

example : Announces (threeVertices.pairs .r2018 true) 90 10 0 (2 ^ 31) :=
  C69_entity _ _ _ rfl (by simp [threeVertices, EName.announced])

example : CodePair.newI32 90 3#32 ∈ threeVertices.pairs .r2018 true ∧
    follow 10 ((threeVertices.pairs .r2018 true).drop 1) = 3 := by decide +kernel

/-- A filter with two points. -/
private def twoPoints : Object :=
  ⟨.spatialFilter, Entry.dflt _, { points := [⟨.zero, .zero, .zero⟩, ⟨.ofInt 1, .zero, .zero⟩] }⟩

example : ∃ ps, twoPoints.pairs .r2018 = .ok ps ∧ Announces ps 70 10 0 (2 ^ 15) :=
  ⟨_, rfl, C69_object (o := twoPoints) (v := .r2018) rfl rfl (by simp [twoPoints, OName.announced])⟩

/-- A text in two columns. -/
private def twoColumns : Entry EName.mText.decls :=
  ⟨Rec.set (Rec.dflt _) 45 ([.ofInt 4, .ofInt 5] : List F64), [], []⟩

example : ∃ a b, Entity.pairs .r2018 true ⟨⟨.mText, 0, twoColumns⟩, .dflt⟩ =
    a ++ .newF64 50 (F64.ofInt 2) :: b ∧ follow 50 b = 2 :=
  C69_columns 0 twoColumns .dflt .r2018 true rfl

/-- A spline with one knot more than a short can count. -/
private def manyKnots : Entry EName.spline.decls :=
  ⟨Rec.set (Rec.dflt _) 29 (List.replicate (2 ^ 15) .zero : List F64), [], []⟩

example : 2 ^ 15 ≤ List.length (manyKnots.fields 29 : List F64) :=
  (List.length_replicate (n := 2 ^ 15) (a := F64.zero)).ge

/-- What the reader has in hand at the end of a macro project of five bytes. -/
private def fiveBytes : Entry OName.vbaProject.decls :=
  ⟨Rec.set (Rec.dflt _) 3 ([[1, 2, 3], [4, 5]] : List (List Byte)), [], []⟩

example : ∃ ps, Object.pairs .r2018
      ⟨.vbaProject, { fiveBytes with fields := vbaPost fiveBytes.fields }, {}⟩ = .ok ps ∧
    ∃ a b, ps = a ++ .newI32 90 5#32 :: b ∧ follow 310 b = 0 :=
  ⟨_, rfl, C69_data_violated (e := fiveBytes) (y := {}) (v := .r2018) rfl rfl⟩

end Dxf
