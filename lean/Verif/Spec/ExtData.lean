import Verif.Model.ExtData

/-! Specification vocabulary for extension data groups. -/

namespace Dxf

mutual
/-- Every pair anywhere inside the item is an ordinary one: not itself a group marker (102)
and not a comment (999). -/
def ExtItem.Plain : ExtItem → Prop
  | .pair p => p.code ≠ 102 ∧ p.code ≠ 999
  | .group _ items => ExtItem.PlainList items
def ExtItem.PlainList : List ExtItem → Prop
  | [] => True
  | i :: is => ExtItem.Plain i ∧ ExtItem.PlainList is
end

mutual
/-- No group anywhere inside the item is empty. -/
def ExtItem.NoEmpty : ExtItem → Prop
  | .pair _ => True
  | .group _ items => items ≠ [] ∧ ExtItem.NoEmptyList items
def ExtItem.NoEmptyList : List ExtItem → Prop
  | [] => True
  | i :: is => ExtItem.NoEmpty i ∧ ExtItem.NoEmptyList is
end

mutual
/-- The items with the empty groups inside them left out, at every depth. -/
def ExtItem.prune : ExtItem → ExtItem
  | .pair p => .pair p
  | .group name items => .group name (ExtItem.pruneList items)
def ExtItem.pruneList : List ExtItem → List ExtItem
  | [] => []
  | .group _ [] :: is => ExtItem.pruneList is
  | .group name (i :: r) :: is => ExtItem.prune (.group name (i :: r)) :: ExtItem.pruneList is
  | .pair p :: is => .pair p :: ExtItem.pruneList is
end

/-- The groups that survive: the empty ones are dropped, at the top level and inside. -/
def ExtGroup.kept (gs : List ExtGroup) : List ExtGroup :=
  (gs.filter fun g => !g.items.isEmpty).map fun g => ⟨g.name, ExtItem.pruneList g.items⟩

/-- Every group holds only ordinary pairs. -/
def ExtGroup.AllPlain (gs : List ExtGroup) : Prop := ∀ g ∈ gs, ExtItem.PlainList g.items

end Dxf
