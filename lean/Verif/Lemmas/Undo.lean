import Verif.Lemmas.Drawing

/-! Removing the last item. -/

namespace Dxf

variable {Img : Type}

open Drawing

theorem removeItem_last {α : Type} (l : List α) (x : α) :
    removeItem (l ++ [x]) l.length = (some x, l) := by
  unfold removeItem
  rw [List.getElem?_concat_length]
  simp

theorem setTable_same (d : Drawing Img) (t : TName) : d.setTable t (d.tables t) = d := by
  have : (fun t' => if h : t = t' then h ▸ d.tables t else d.tables t') = d.tables := by
    funext t'
    by_cases h : t = t'
    · subst h
      simp
    · simp [h]
  unfold setTable
  rw [this]

theorem setTable_twice (d : Drawing Img) (t : TName) (l l' : List t.Item) :
    (d.setTable t l).setTable t l' = d.setTable t l' := by
  unfold setTable
  congr 1
  funext t'
  by_cases h : t = t' <;> simp [h]

theorem remove_push (d : Drawing Img) (t : TName) (x : t.Item) :
    (d.push t x).remove t (d.tables t).length = (some x, d) := by
  unfold remove push
  rw [tables_set, removeItem_last]
  refine Prod.ext rfl ?_
  change (d.setTable t _).setTable t _ = d
  rw [setTable_twice, setTable_same]

end Dxf
