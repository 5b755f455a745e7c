import Verif.Lemmas.Lookup
import Verif.Spec.Refs

/-! References to items. -/

namespace Dxf

/-- The types of the fields of pointers. -/
def Ty.IsRef (t : Ty) : Prop := t = .handle ∨ t = .list .handle

instance (t : Ty) : Decidable t.IsRef := inferInstanceAs (Decidable (t = .handle ∨ t = .list .handle))

theorem EName.pointers_isRef (k : EName) {p : Pointer} (hp : p ∈ k.pointers) :
    (tyAt k.decls p.field).IsRef := by
  have key : k.pointers.all fun p => decide (tyAt k.decls p.field).IsRef := by
    cases k <;> decide +kernel
  exact of_decide_eq_true (List.all_eq_true.mp key p hp)

theorem OName.pointers_isRef (k : OName) {p : Pointer} (hp : p ∈ k.pointers) :
    (tyAt k.decls p.field).IsRef := by
  have key : k.pointers.all fun p => decide (tyAt k.decls p.field).IsRef := by
    cases k <;> decide +kernel
  exact of_decide_eq_true (List.all_eq_true.mp key p hp)

theorem FWrite.fits_ref {t : Ty} (ht : t.IsRef) (w : FWrite t) (a b : t.den) : w.Fits a b := by
  rcases ht with ht | ht
  · exact FWrite.fits_simple (.inl ht) w a b
  · cases w with
    | one code c => cases c <;> first | trivial | cases ht
    | many code c =>
      cases ht
      intro x _
      cases c <;> trivial
    | axes => cases ht
    | points => cases ht
    | lw => trivial

theorem Ty.refs_store {t : Ty} (ht : t.IsRef) (v : t.den) (h : Handle) :
    t.refs (t.store v h) = if t = .handle then [h] else t.refs v ++ [h] := by
  rcases ht with rfl | rfl
  · rfl
  · rfl

theorem RefType.admits_iff (typ : RefType) (x : DrawingItem) : typ.admits x = true ↔ typ.Means x := by
  constructor
  · intro h
    rcases typ with _ | t | (_ | k) | (_ | k) <;> cases x <;> first
      | exact .any _
      | exact .entity _
      | exact .object _
      | (cases of_decide_eq_true h; exact .table _ _)
      | (cases of_decide_eq_true h; exact .entityOf _)
      | (cases of_decide_eq_true h; exact .objectOf _)
      | exact (Bool.false_ne_true h).elim
  · rintro (_ | _ | _ | _ | _ | _) <;> first
      | rfl
      | exact decide_eq_true rfl

theorem RefType.admits_restored {v : Version} {x y : DrawingItem} (h : x.Restored v y)
    (typ : RefType) : typ.admits y = typ.admits x := by
  cases x with
  | table t a =>
    obtain ⟨b, rfl, -⟩ := h
    rcases typ with _ | _ | (_ | _) | (_ | _) <;> rfl
  | block a =>
    obtain ⟨b, es, rfl, -⟩ := h
    rcases typ with _ | _ | (_ | _) | (_ | _) <;> rfl
  | entity a =>
    obtain ⟨b, rfl, h⟩ := h
    obtain ⟨e', -, x', -, rfl⟩ := h
    rcases typ with _ | _ | (_ | _) | (_ | _) <;> rfl
  | object a =>
    obtain ⟨b, rfl, h⟩ := h
    obtain ⟨e', -, rfl⟩ := h
    rcases typ with _ | _ | (_ | _) | (_ | _) <;> rfl

namespace DrawingItem

theorem pointers_restored {v : Version} {x y : DrawingItem} (h : x.Restored v y) {p : Pointer}
    (hp : p ∈ x.pointers) (hc : x.Carries v p) : y.refHandles p = x.refHandles p := by
  cases x with
  | table t a => exact hc.elim
  | block a => exact hc.elim
  | entity a =>
    obtain ⟨b, rfl, h⟩ := h
    obtain ⟨e', h, x', -, rfl⟩ := h
    obtain ⟨h1, h2, h3⟩ := hc
    have ht := a.kind.pointers_isRef hp
    have := h.1 p.field h1 h2 fun _ _ _ w _ => FWrite.fits_ref ht w _ _
    rw [if_pos h3] at this
    exact congrArg (tyAt a.kind.decls p.field).refs this
  | object a =>
    obtain ⟨b, rfl, h⟩ := h
    obtain ⟨e', h, rfl⟩ := h
    obtain ⟨h1, h3⟩ := hc
    have ht := a.kind.pointers_isRef hp
    have := h.1 p.field h1 fun _ _ _ w _ => FWrite.fits_ref ht w _ _
    rw [if_pos h3] at this
    exact congrArg (tyAt a.kind.decls p.field).refs this

theorem refs_eq {Img : Type} (d : Drawing Img) (p : Pointer) (x : DrawingItem) :
    x.refs d p = (x.refHandles p).filterMap fun h => (d.itemByHandle h).filter p.typ.admits := by
  cases x <;> rfl

end DrawingItem

/-- Looking up a list of handles in two drawings. -/
theorem filterMap_restored {v : Version} (typ : RefType) {f g : Handle → Option DrawingItem}
    {hs : List Handle}
    (h1 : ∀ h ∈ hs, ∀ x, f h = some x → x.Filed v → ∃ y, g h = some y ∧ x.Restored v y)
    (h2 : ∀ h ∈ hs, ∀ y, g h = some y → ∃ x, f h = some x ∧ x.Filed v ∧ x.Restored v y) :
    List.Forall₂ (DrawingItem.Restored v)
      ((hs.filterMap fun h => (f h).filter typ.admits).filter fun x => x.Filed v)
      (hs.filterMap fun h => (g h).filter typ.admits) := by
  induction hs with
  | nil => exact .nil
  | cons h hs ih =>
    have ih := ih (fun h hm => h1 h (List.mem_cons_of_mem _ hm))
      (fun h hm => h2 h (List.mem_cons_of_mem _ hm))
    replace h1 := h1 h List.mem_cons_self
    replace h2 := h2 h List.mem_cons_self
    rw [List.filterMap_cons, List.filterMap_cons]
    cases hg : g h with
    | none =>
      rw [Option.filter_none]
      cases hf : f h with
      | none =>
        rw [Option.filter_none]
        exact ih
      | some x =>
        have hn : ¬ x.Filed v := fun hx => by
          obtain ⟨y, hy, -⟩ := h1 x hf hx
          rw [hg] at hy
          cases hy
        rw [Option.filter_some]
        cases typ.admits x with
        | true =>
          rw [if_pos rfl]
          dsimp only
          rw [List.filter_cons_of_neg (by simpa using hn)]
          exact ih
        | false => exact ih
    | some y =>
      obtain ⟨x, hf, hx, hxy⟩ := h2 y hg
      rw [hf, Option.filter_some, Option.filter_some, RefType.admits_restored hxy]
      cases typ.admits x with
      | true =>
        rw [if_pos rfl, if_pos rfl]
        dsimp only
        rw [List.filter_cons_of_pos (by simpa using hx)]
        exact .cons hxy ih
      | false => exact ih

end Dxf
