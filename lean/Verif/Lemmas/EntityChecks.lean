import Verif.Spec.Entities
import Verif.Lemmas.Staged
import Verif.Lemmas.Tables

/-! Reading what was written for an entity. -/

namespace Dxf

theorem version_mem (v : Version) : v ∈ Version.all := by cases v <;> decide

namespace EName

/-- The codes whose value matters for the mode. -/
def vals : EName → Int → Bool
  | .attribute, c => c == 100
  | .attributeDefinition, c => c == 100
  | .dimension, c => c == 100
  | _, _ => false

/-- The fields that need an argument of their own. -/
def skip (k : EName) (v : Version) : List Nat :=
  match k with
  | .mText => k.lost v ++ [34, 35, 43]
  | .proxyEntity => k.lost v ++ [20]
  | _ => k.lost v ++ k.packed

/-- The number that reading gives for what was written with `n`. -/
def subOf : EName → Nat → Nat
  | .dimension, n => n
  | _, _ => 0

/-- The statement for the packed fields of a dimension, which a hand-written arm reads. -/
def exempt : (k : EName) → Mode → Cmd k.decls → Bool
  | .dimension, m, .computed code c _ => m.n == 0 && code == 70 && decide (c.wire = .i16)
  | _, _, _ => false

/-- What has to be true of the tables of a kind. -/
def check (k : EName) (n : Nat) (v : Version) (wh : Bool) (skip : List Nat) : Bool :=
  match annotate k.kind.next k.vals Mode.start (gated v (k.statements n wh)) with
  | none => false
  | some (as, m) =>
    (as.all fun x => (x.2.cmd.safeL (k.kind.arms x.1) || k.exempt x.1 x.2.cmd) &&
      x.2.cmd.clean (k.kind.arms x.1) skip &&
      x.2.cmd.codes.all plainCode) &&
    decide (k.kind.sub m = some (k.subOf n)) &&
    (List.range k.decls.length).all fun i =>
      skip.contains i || growOKa (gated v (k.statements n wh)) i

/-- The check for all versions. -/
def checkAll (k : EName) (n : Nat) (from_ : Version) : Bool :=
  Version.all.all fun v => !k.supported v || !decide (from_ ≤ v) ||
    (k.check n v true (k.skip v) && k.check n v false (k.skip v))

theorem check_kinds : ∀ k ∈ EName.all, (decide (k = .dimension) || k.checkAll 0 .v1_0) = true := by
  decide +kernel

theorem check_insert : EName.insert.checkAll 1 .v1_0 = true := by decide +kernel

theorem check_rotated : EName.dimension.checkAll 1 .r13 = true := by decide +kernel

theorem check_dimension : ∀ n ∈ [2, 3, 4, 5], EName.dimension.checkAll n .v1_0 = true := by
  decide +kernel

end EName

end Dxf
