import Verif.Model.Bytes

/-! What is expected of the files of drawings that differ in one place (C72). -/

namespace Dxf

/-- The drawings `g x` differ in one place, where `x` stands, and so do their files: the part `f x`
stands between what is before and behind it, which is the same for all of them. -/
def Localized {α β D : Type} (P : α → Prop) (save : D → Except DxfErr (List β)) (g : α → D)
    (f : α → Except DxfErr (List β)) : Prop :=
  ∀ x ps, P x → save (g x) = .ok ps →
    ∃ before behind, ∀ y, P y → save (g y) = (f y).map fun part => before ++ part ++ behind

/-- The fields of the header whose change has further effects: the version, and whether handles are
written.  Fields 45 and 46 are written as two variables each. -/
def Header.special : List Nat := [0, 45, 46, 140]

end Dxf
