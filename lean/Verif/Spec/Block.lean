import Verif.Model.Block
import Verif.Spec.Tables
import Verif.Spec.Collect

/-! Specification vocabulary for blocks. -/

namespace Dxf

mutual
/-- No pair anywhere inside the item has code 0. -/
def ExtItem.NoZero : ExtItem → Prop
  | .pair p => p.code ≠ 0
  | .group _ items => ExtItem.NoZeroList items
def ExtItem.NoZeroList : List ExtItem → Prop
  | [] => True
  | i :: is => ExtItem.NoZero i ∧ ExtItem.NoZeroList is
end

/-- `b'` is the block `b` as restored from a file of version `v`: the fields and extension groups
as for a table entry, no extended data, and the entities whose kinds the version supports, in
order. -/
def Block.Restored (v : Version) (writeHandles : Bool) (b b' : Block) : Prop :=
  Dxf.Restored Blocks.kind v writeHandles [] { b.entry with xdata := [] } b'.entry ∧
  List.Forall₂ (Entity.Restored v writeHandles) (b.entities.filter fun e => e.kind.supported v)
    b'.entities

end Dxf
