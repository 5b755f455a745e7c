import Verif.Model.File
import Verif.Spec.Pairs
import Mathlib.Data.List.Forall2

/-! The pairs a drawing holds as they are: those of extension groups and of the data of an
XRecord. -/

namespace Dxf

mutual
/-- The pairs in an item of an extension group. -/
def ExtItem.held : ExtItem → List CodePair
  | .pair p => [p]
  | .group _ items => ExtItem.heldList items
/-- The pairs in the items of an extension group. -/
def ExtItem.heldList : List ExtItem → List CodePair
  | [] => []
  | i :: is => ExtItem.held i ++ ExtItem.heldList is
end

/-- The pairs in an extension group. -/
def ExtGroup.held (g : ExtGroup) : List CodePair := ExtItem.heldList g.items

/-- The pairs a drawing holds in extension groups and as the data of XRecords. -/
def Drawing.held {Img : Type} (d : Drawing Img) : List CodePair :=
  (TName.all.flatMap fun t => (d.tables t).flatMap fun x => x.ext.flatMap ExtGroup.held) ++
  (d.blocks.flatMap fun b => b.entry.ext.flatMap ExtGroup.held ++
    b.entities.flatMap fun e => e.entry.ext.flatMap ExtGroup.held) ++
  (d.entities.flatMap fun e => e.entry.ext.flatMap ExtGroup.held) ++
  d.objects.flatMap fun o => o.entry.ext.flatMap ExtGroup.held ++ o.extra.pairs

/-- `w` is what is read from the text of the value `v`: a double may be rounded to twelve
decimals. -/
def TextValue.Gives : CodePairValue → CodePairValue → Prop
  | .double x, w => ∃ y, w = .double y ∧ ReadsAs x y
  | v, w => w = v

/-- `d'` is `d` with numbers as its text file has them: the same pairs are written for both, except
that numbers are rounded. -/
structure Drawing.TextOf {Img : Type} (codec : ImageCodec Img) (d d' : Drawing Img) : Prop where
  version : d'.version = d.version
  pairs : ∀ qs, d'.codePairs codec = .ok qs → ∃ ps, d.codePairs codec = .ok ps ∧
    List.Forall₂ (fun p q => q.code = p.code ∧ TextValue.Gives p.value q.value) ps qs

end Dxf
