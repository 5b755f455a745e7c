import Verif.Lemmas.ExtData
import Verif.Lemmas.XData

/-! C25: extension data groups and extended data round trip. -/

namespace Dxf

/-- C25, extension groups: what is written for a group starts with a 102 pair holding `{` and
the name; reading from there returns the same group, to any nesting depth, and leaves exactly
what follows the group.  The pairs inside must be ordinary ones and no group may be empty. -/
theorem C25_ext_group (g : ExtGroup) (hp : ExtItem.PlainList g.items)
    (he : ExtItem.NoEmptyList g.items) (hne : g.items ≠ []) :
    ∃ tail, g.pairs = .newStr 102 ('{' :: g.name) :: tail ∧
      ∀ off rest, ExtGroup.read ('{' :: g.name) off (toStream tail ++ rest) = (.ok g, rest) := by
  refine ⟨ExtItem.pairsList g.items ++ [.newStr 102 str!"}"], ?_, fun off rest => ?_⟩
  · unfold ExtGroup.pairs
    rw [if_neg (by simp [hne])]
    rfl
  · have := ExtGroup.read_written g hne hp off rest
    rw [ExtItem.pruneList_eq _ he] at this
    simpa using this

/-- The general form: empty groups inside are left out, everything else comes back. -/
theorem C25_ext_group_pruned (g : ExtGroup) (hp : ExtItem.PlainList g.items) (hne : g.items ≠ []) :
    ∃ tail, g.pairs = .newStr 102 ('{' :: g.name) :: tail ∧
      ∀ off rest, ExtGroup.read ('{' :: g.name) off (toStream tail ++ rest) =
        (.ok ⟨g.name, ExtItem.pruneList g.items⟩, rest) := by
  refine ⟨ExtItem.pairsList g.items ++ [.newStr 102 str!"}"], ?_, fun off rest => ?_⟩
  · unfold ExtGroup.pairs
    rw [if_neg (by simp [hne])]
    rfl
  · simpa using ExtGroup.read_written g hne hp off rest

/-- A group three levels deep meets the hypotheses. -/
example : let g : ExtGroup := ⟨str!"A", [.pair (.newI16 70 3#16),
      .group str!"B" [.group [] [.pair (.newStr 0 str!"LINE")], .pair (.newStr 5 str!"}")]]⟩
    ExtItem.PlainList g.items ∧ ExtItem.NoEmptyList g.items ∧ g.items ≠ [] := by
  simp [ExtItem.PlainList, ExtItem.Plain, ExtItem.NoEmptyList, ExtItem.NoEmpty,
    CodePair.newStr, CodePair.newI16]

/-- Violation: an empty group is not written at all, at the top level or inside another. -/
theorem C25_ext_empty_lost (name : Str) :
    (ExtGroup.mk name []).pairs = [] ∧
    ∀ outer p, (ExtGroup.mk outer [.pair p, .group name []]).pairs =
      (ExtGroup.mk outer [.pair p]).pairs := by
  refine ⟨rfl, fun outer p => ?_⟩
  simp [ExtGroup.pairs, ExtItem.pairsList, ExtItem.pairs]

/-- Violation outside the hypotheses: a pair with code 102 inside a group makes the group
unreadable, and a pair with code 999 inside a group is lost. -/
theorem C25_ext_not_plain :
    (ExtGroup.mk str!"A" [.pair (.newStr 102 str!"x")]).pairs =
        [.newStr 102 str!"{A", .newStr 102 str!"x", .newStr 102 str!"}"] ∧
    (ExtGroup.read str!"{A" 0 (toStream [.newStr 102 str!"x", .newStr 102 str!"}"])).1 =
        .error (.unexpectedCodePair (.newStr 102 str!"x")) ∧
    (ExtGroup.mk str!"A" [.pair (.newStr 999 str!"x")]).pairs =
        [.newStr 102 str!"{A", .newStr 999 str!"x", .newStr 102 str!"}"] ∧
    (ExtGroup.read str!"{A" 0 (toStream [.newStr 999 str!"x", .newStr 102 str!"}"])).1 =
        .ok ⟨str!"A", []⟩ := by
  refine ⟨rfl, rfl, rfl, rfl⟩

/-- C25, extended data: from R2000 on every extended data list is read back exactly, to any
nesting depth, and reading stops exactly where the written pairs end, provided what follows
is the end of the input, another 1001 pair or a pair with a code below 1000. -/
theorem C25_xdata (x : XData) (v : Version) (hv : .r2000 ≤ v) :
    ∃ tail, x.pairs v = .newStr 1001 x.name :: tail ∧
      ∀ rest, XData.Stops rest → XData.read x.name (toStream tail ++ rest) = (.ok x, rest) := by
  refine ⟨XDataItem.pairsList x.items, ?_, fun rest hr => XData.read_written x rest hr⟩
  unfold XData.pairs
  rw [if_pos hv]

example : Version.r2000 ≤ Version.r2013 ∧
    XData.Stops (toStream [.newStr 0 str!"LINE", .newStr 8 str!"0"]) := by
  refine ⟨by decide, Or.inr ⟨_, _, rfl, by decide, by decide⟩⟩

/-- Violation: extended data is not written before R2000. -/
theorem C25_xdata_old (x : XData) (v : Version) (hv : ¬ .r2000 ≤ v) : x.pairs v = [] := by
  unfold XData.pairs
  rw [if_neg hv]

example : ¬ Version.r2000 ≤ Version.r14 := by decide

/-- Reading extension groups and extended data from any stream at all returns normally: no
panic and no endless loop (the recursion fuel, one more than the number of items, is never
used up), and the stream never grows. -/
theorem C25_reading_total (name : Str) (off : Nat) (s : Stream) (hs : NoBad s) :
    Good s.length (ExtGroup.read name off s) ∧ Good s.length (XData.read name s) :=
  ⟨ExtGroup.read_good name off s hs, XData.read_good name s hs⟩

example : NoBad (toStream [.newStr 102 str!"{A"]) := NoBad.toStream _

end Dxf
