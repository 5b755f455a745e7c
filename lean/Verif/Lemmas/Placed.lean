import Verif.Model.Placed
import Verif.Props.Shapes

/-! Strings and numbers that may be left out, written and read (C78). -/

namespace Dxf

/-- A statement that writes a number unless it is the default. -/
theorem emit_opt {ds : List Decl} {g : GCmd ds} {v : Version} {r : Rec ds} {c : Int} {z : F64} {b : Bool}
    (hh : g.holds v r = !b) (he : g.cmd.emit r = [.newF64 c z]) :
    withCode c (emitAll [g] v r) = if b then [] else [.newF64 c z] := by
  have h : emitAll [g] v r = g.emit v r := List.append_nil _
  rw [h, GCmd.emit, hh, he]
  cases b <;> simp [withCode, CodePair.newF64]

theorem fold_lens {ds : List Decl} {arms : List (Arm ds)} {α : Type} {get : Rec ds → α} {c : Int}
    {w : CodePairValue} {a : α}
    (other : ∀ r r' p, p.code ≠ c → applyPair arms r p = .ok r' → get r' = get r)
    (own : ∀ r r' p, p.code = c → p.value = w → applyPair arms r p = .ok r' → get r' = a)
    {ps : List CodePair} (hp : (withCode c ps).map CodePair.value = [w]) {r r' : Rec ds}
    (h : foldPairs arms r ps = .ok r') : get r' = a := by
  have others : ∀ (ps : List CodePair) (r : Rec ds), withCode c ps = [] →
      foldPairs arms r ps = .ok r' → get r' = get r := by
    intro ps
    induction ps with
    | nil => intro r _ h; cases h; rfl
    | cons p ps ih =>
      intro r hp h
      obtain ⟨r1, h1, h2⟩ := fold_cons h
      have := List.filter_eq_nil_iff.mp hp
      rw [ih r1 (List.filter_eq_nil_iff.mpr fun q hq => this q (List.mem_cons_of_mem _ hq)) h2]
      exact other _ _ _ (by simpa using this p List.mem_cons_self) h1
  induction ps generalizing r with
  | nil => cases hp
  | cons p ps ih =>
    obtain ⟨r1, h1, h2⟩ := fold_cons h
    unfold withCode at hp
    rw [List.filter_cons] at hp
    by_cases hc : p.code = c
    · rw [if_pos (decide_eq_true hc), List.map_cons, List.cons.injEq, List.map_eq_nil_iff] at hp
      rw [others ps r1 hp.2 h2]
      exact own _ _ _ hc hp.1 h1
    · rw [if_neg (by simpa using hc)] at hp
      exact ih hp h2

def Ty.strOf : (t : Ty) → t.den → Option Str
  | .str, x => some x
  | _, _ => none

def FRead.str? : {t : Ty} → FRead t → Bool
  | _, .set .str => true
  | _, _ => false

/-- The arm sets the field to a string. -/
def Act.givesStr {ds : List Decl} (i : Nat) : Act ds → Bool
  | .on j f => decide (j = i) && f.str?
  | .custom _ _ => false

/-- The code, and no other one, sets the field. -/
def strFits {ds : List Decl} (arms : List (Arm ds)) (c : Int) (i : Nat) : Bool :=
  (arms.all fun a => if a.code = c then a.act.givesStr i else a.act.spares (.num i)) &&
    arms.any fun a => decide (a.code = c)

theorem str_own {t : Ty} {f : FRead t} (hf : f.str? = true) {x y : t.den}
    {p : CodePair} {z : Str} (hp : p.value = .str z) (h : f.apply x p = .ok y) :
    Ty.strOf t y = some z := by
  unfold FRead.str? at hf
  split at hf
  · have hp : p.assertString = .ok z := by rw [CodePair.assertString, hp]
    simp only [FRead.apply, RConv.read, hp] at h
    cases h
    rfl
  · cases hf

theorem str_read {ds : List Decl} {arms : List (Arm ds)} {i : Nat} {c : Int}
    (hf : strFits arms c i = true) {z : Str} {ps : List CodePair}
    (hp : (withCode c ps).map CodePair.value = [.str z]) {r0 r : Rec ds}
    (hr : foldPairs arms r0 ps = .ok r) : Ty.strOf (tyAt ds i) (r.finish i) = some z := by
  have hfin : ∀ (t : Ty) (x : t.den), Ty.strOf t (Ty.finish t x) = Ty.strOf t x := by
    intro t x
    cases t <;> rfl
  refine (hfin _ _).trans (fold_lens (get := fun r => Ty.strOf (tyAt ds i) (r i)) ?_ ?_ hp hr)
  · intro r r' p hc h
    unfold applyPair at h
    cases ha : findArm arms p.code with
    | none => rw [ha] at h; cases h; rfl
    | some a =>
      rw [ha] at h
      obtain ⟨hm, hc'⟩ := findArm_mem ha
      have := List.all_eq_true.mp (Bool.and_eq_true_iff.mp hf).1 a hm
      rw [if_neg (hc' ▸ hc)] at this
      cases hact : a.act with
      | custom ts f => rw [hact] at this; cases this
      | on j f =>
        rw [hact] at this
        change (a.act.apply r p) = _ at h
        rw [hact] at h
        obtain ⟨x, -, rfl⟩ := on_apply h
        have hj : j ≠ i := of_decide_eq_true this
        rw [Rec.set_ne r x (Ne.symm hj)]
  · intro r r' p hc hz h
    unfold applyPair at h
    cases ha : findArm arms p.code with
    | none =>
      obtain ⟨a, hm, hc'⟩ := List.any_eq_true.mp (Bool.and_eq_true_iff.mp hf).2
      have := List.find?_eq_none.mp ha a hm
      rw [hc] at this
      exact absurd hc' this
    | some a =>
      rw [ha] at h
      obtain ⟨hm, hc'⟩ := findArm_mem ha
      have := List.all_eq_true.mp (Bool.and_eq_true_iff.mp hf).1 a hm
      rw [if_pos (hc'.trans hc)] at this
      cases hact : a.act with
      | custom ts f => rw [hact] at this; cases this
      | on j f =>
        rw [hact] at this
        change (a.act.apply r p) = _ at h
        rw [hact] at h
        obtain ⟨x, hx, rfl⟩ := on_apply h
        simp only [Act.givesStr, Bool.and_eq_true, decide_eq_true_eq] at this
        obtain ⟨rfl, hs⟩ := this
        rw [Rec.set_self]
        exact str_own hs hz hx

theorem opt_read {ds : List Decl} {arms : List (Arm ds)} {i : Nat} {c : Int}
    (hf : Spot.fits arms c (.num i) = true) {z d : F64} {ps : List CodePair}
    (h : (withCode c ps).map CodePair.value = [.double z] ∨ (withCode c ps = [] ∧ z = d))
    {r0 r : Rec ds} (hd : Spot.get r0 (.num i) = some d)
    (hr : foldPairs arms r0 ps = .ok r) : Ty.numOf (tyAt ds i) (r.finish i) = some z := by
  obtain h | ⟨h, rfl⟩ := h
  · exact num_read hf h hr
  · have hx := fold_other hf h hr
    rw [← get_finish, hd] at hx
    exact hx

end Dxf
