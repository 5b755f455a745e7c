import Verif.Lemmas.Entities

/-! The conditions of write statements. -/

namespace Dxf

/-- A statement for a field is always emitted, or omitted only when the field holds its default
value in the sense of Rust's `==`. -/
def Tame {ds : List Decl} (g : GCmd ds) : Prop :=
  match g.cmd with
  | .field i _ => ∀ r, g.cond r = true ∨ (tyAt ds i).rustEq (r i) (Rec.dflt ds i) = true
  | _ => True

theorem tame_always {ds : List Decl} {g : GCmd ds} (h : ∀ r, g.cond r = true) : Tame g := by
  unfold Tame
  split
  · exact fun r => .inl (h r)
  · trivial

theorem tame_ne {ds : List Decl} {i : Nat} (w : FWrite (tyAt ds i)) (mn mx : Option Version)
    (d : (tyAt ds i).den) (hd : d = Rec.dflt ds i) :
    Tame (ds := ds) ⟨.field i w, mn, mx, fun r => !(Ty.rustEq (tyAt ds i) (r i) d)⟩ := by
  intro r
  subst hd
  change (!(Ty.rustEq (tyAt ds i) (r i) (Rec.dflt ds i))) = true ∨ _
  cases Ty.rustEq (tyAt ds i) (r i) (Rec.dflt ds i)
  · exact .inl rfl
  · exact .inr rfl

theorem tame_common (ds : List Decl) : ∀ g ∈ commonHead ds true ++ commonCmds ds true, Tame g := by
  simp only [commonHead, commonCmds, List.cons_append, List.nil_append]
  repeat' first
    | exact fun _ h => absurd h List.not_mem_nil
    | (refine List.forall_mem_cons.mpr ⟨?_, ?_⟩)
    | exact tame_always (by intro _; with_reducible rfl)
    | exact tame_ne _ _ _ _ rfl
  · intro r
    have : ∀ x : Bool, x = true ∨ Ty.rustEq .bool x false = true := by decide
    exact this (r 2)
  · intro r
    have : ∀ x : Bool, (!x) = true ∨ Ty.rustEq .bool x true = true := by decide
    exact this (r 10)

theorem tame (k : EName) (n : Nat) : ∀ g ∈ k.statements n true, Tame g := by
  unfold EName.statements
  rw [← List.append_assoc]
  refine List.forall_mem_append.mpr ⟨tame_common _, ?_⟩
  cases k
  case dimension =>
    simp only [EName.kind, Ent.dimensionCmds, Ent.dimensionBaseCmds, List.cons_append,
      List.nil_append]
    rcases n with _ | _ | _ | _ | _ | _ | n <;> simp only [List.nil_append] <;>
    repeat' first
      | exact fun _ h => absurd h List.not_mem_nil
      | (refine List.forall_mem_cons.mpr ⟨?_, ?_⟩)
      | exact tame_always (by intro _; with_reducible rfl)
      | exact tame_ne _ _ _ _ rfl
  all_goals
    simp only [EName.kind]
    repeat' first
      | exact fun _ h => absurd h List.not_mem_nil
      | (refine List.forall_mem_cons.mpr ⟨?_, ?_⟩)
      | exact tame_always (by intro _; with_reducible rfl)
      | exact tame_ne _ _ _ _ rfl
      | exact trivial

end Dxf
