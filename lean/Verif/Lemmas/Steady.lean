import Verif.Lemmas.AssembleFile
import Verif.Lemmas.EntityConds
import Verif.Props.Header

/-! What a second round trip does to a field: nothing. -/

namespace Dxf

variable {ds : List Decl}

/-- Whether a statement for a field is executed depends only on the version and the field, or, from
R2000 on, on the fields in `G`; and it is always executed or the default value is representable. -/
def Steady (G : List Nat) (g : GCmd ds) : Prop :=
  match g.cmd with
  | .field i w => ((∀ r r', r i = r' i → g.cond r = g.cond r') ∨
      (g.min = some .r2000 ∨ g.min = some .r2007) ∧
        ∀ r r', (∀ j ∈ G, r j = r' j) → g.cond r = g.cond r') ∧
    ((∀ r, g.cond r = true) ∨ w.Fits (Rec.dflt ds i) (Rec.dflt ds i))
  | _ => True

theorem steady_always {G : List Nat} {g : GCmd ds} (h : ∀ r, g.cond r = true) : Steady G g := by
  unfold Steady
  split
  · exact ⟨.inl fun r r' _ => (h r).trans (h r').symm, .inl h⟩
  · trivial

theorem steady_own {G : List Nat} {i : Nat} (w : FWrite (tyAt ds i)) (mn mx : Option Version)
    (f : (tyAt ds i).den → Bool) (hd : w.Fits (Rec.dflt ds i) (Rec.dflt ds i)) :
    Steady (ds := ds) G ⟨.field i w, mn, mx, fun r => f (r i)⟩ :=
  ⟨.inl fun r r' h => by change f (r i) = f (r' i); rw [h], .inr hd⟩

/-- The value of a field after one more round trip. -/
theorem again {stmts : List (GCmd ds)} {G : List Nat} {v : Version} {a b c : Rec ds} {i : Nat}
    (hs : ∀ g ∈ stmts, g.writes i = true → Steady G g) (hrep : Representable stmts v a i)
    (hab : b i = if Written stmts v a i then a i else Rec.dflt ds i)
    (hG : .r2000 ≤ v → ∀ j ∈ G, b j = a j)
    (hbc : Representable stmts v b i →
      c i = if Written stmts v b i then b i else Rec.dflt ds i) :
    c i = if Written stmts v a i then a i else Rec.dflt ds i := by
  have same : b i = a i → ∀ g ∈ stmts, g.writes i = true → g.holds v b = g.holds v a := by
    intro h g hg hw
    have := hs g hg hw
    unfold Steady at this
    unfold GCmd.writes at hw
    unfold GCmd.holds
    split at this
    · rename_i j w hj
      rw [hj] at hw
      have e : j = i := by simpa using hw
      subst e
      rcases this.1 with k | ⟨hm, k⟩
      · rw [k b a h]
      · by_cases hv : Version.r2000 ≤ v
        · rw [k b a (hG hv)]
        · have : versionGate g.min g.max v = false := by
            unfold versionGate
            refine Bool.and_eq_false_iff.mpr (.inl ?_)
            rcases hm with hm | hm <;> rw [hm] <;> revert hv <;> cases v <;> decide
          rw [this]
          rfl
    · rename_i hn
      split at hw
      · rename_i j w hj
        exact absurd hj (hn j w)
      · cases hw
  have wr : ∀ g : GCmd ds, ∀ w, g.cmd = .field i w → g.writes i = true := by
    intro g w h
    unfold GCmd.writes
    rw [h]
    exact beq_self_eq_true i
  by_cases hw : Written stmts v a i
  · rw [if_pos hw] at hab ⊢
    have hr : Representable stmts v b i := by
      intro g hg hh w hc
      rw [same hab g hg (wr g w hc)] at hh
      rw [hab]
      exact hrep g hg hh w hc
    have hw' : Written stmts v b i := by
      obtain ⟨g, hg, h1, h2⟩ := hw
      exact ⟨g, hg, h1, (same hab g hg h1).trans h2⟩
    rw [hbc hr, if_pos hw', hab]
  · rw [if_neg hw] at hab ⊢
    have hr : Representable stmts v b i := by
      intro g hg hh w hc
      have := hs g hg (wr g w hc)
      unfold Steady at this
      rw [hc] at this
      rw [hab]
      rcases this.2 with h | h
      · refine absurd ⟨g, hg, wr g w hc, ?_⟩ hw
        unfold GCmd.holds at hh ⊢
        rw [h a]
        rw [h b] at hh
        exact hh
      · exact h
    rw [hbc hr, hab]
    split <;> rfl

theorem zero_fits : WConv.i32AsI16.Fits (0#32 : I32) := by
  unfold WConv.Fits
  decide

macro "steady" : tactic => `(tactic| repeat' first
  | exact fun _ h => absurd h List.not_mem_nil
  | (refine List.forall_mem_cons.mpr ⟨?_, ?_⟩)
  | exact steady_always (by intro _; with_reducible rfl)
  | exact steady_own _ _ _ (fun x => !(Ty.rustEq _ x _)) trivial
  | exact steady_own _ _ _ (fun x => !(Ty.rustEq _ x _)) (fun _ _ => rfl)
  | exact steady_own _ _ _ (fun x => !(Ty.rustEq _ x _)) zero_fits
  | exact ⟨.inl fun _ _ _ => rfl, .inr trivial⟩
  | exact ⟨.inl fun _ _ h => h, .inr trivial⟩
  | exact ⟨.inl fun _ _ h => congrArg Bool.not h, .inr trivial⟩
  | exact trivial)

theorem steady_entity (k : EName) (n : Nat) (wh : Bool) :
    ∀ g ∈ k.statements n wh, Steady [] g := by
  unfold EName.statements
  rw [← List.append_assoc]
  refine List.forall_mem_append.mpr ⟨?_, ?_⟩
  · simp only [commonHead, commonCmds, List.cons_append, List.nil_append]
    steady
    · exact ⟨.inl fun _ _ h => congrArg (fun x : Handle => wh && !(Ty.rustEq .handle x 0#64)) h,
        .inr trivial⟩
  cases k
  case dimension =>
    simp only [EName.kind, Ent.dimensionCmds, Ent.dimensionBaseCmds, List.cons_append,
      List.nil_append]
    rcases n with _ | _ | _ | _ | _ | _ | n <;> simp only [List.nil_append] <;>
    steady
  all_goals
    simp only [EName.kind]
    steady

theorem steady_object (k : OName) : ∀ g ∈ k.statements, Steady [] g := by
  unfold OName.statements OName.part1 OName.part2 OName.part3 OName.part4
  refine List.forall_mem_append.mpr ⟨?_, List.forall_mem_append.mpr
    ⟨List.forall_mem_append.mpr ⟨?_, ?_⟩, List.forall_mem_append.mpr ⟨?_, ?_⟩⟩⟩
  · simp only [objectHead]
    steady
  · simp only [objectCmds]
    steady
  all_goals
    cases k <;> simp only [OName.kind] <;> steady

theorem steady_block (wh : Bool) : ∀ g ∈ Blocks.kind.all wh, Steady [] g := by
  simp only [TableKind.all, Blocks.kind, Blocks.head, Blocks.cmds, List.cons_append,
    List.nil_append]
  steady

/-- The fields on which the conditions of other fields depend. -/
def TName.guards : TName → List Nat
  | .view => [14]
  | .viewPort => [28]
  | _ => []

theorem steady_table (t : TName) (wh : Bool) : ∀ g ∈ t.kind.all wh, Steady t.guards g := by
  unfold TableKind.all
  refine List.forall_mem_append.mpr ⟨?_, ?_⟩
  all_goals
    cases t <;> simp only [TName.kind] <;> steady
  all_goals first
    | exact ⟨.inr ⟨.inl rfl, fun _ _ h => h _ (.head _)⟩, .inr trivial⟩
    | exact ⟨.inr ⟨.inr rfl, fun _ _ h => h _ (.head _)⟩, .inr trivial⟩
    | exact ⟨.inr ⟨.inl rfl, fun _ _ h => h _ (.head _)⟩, .inr fun _ _ => rfl⟩
    | exact ⟨.inl fun _ _ h => congrArg (fun x : I16 => decide (x ≠ _)) h, .inr trivial⟩
    | exact ⟨.inl fun _ _ h => congrArg (fun x : I32 => decide (x ≠ _)) h, .inr trivial⟩
    | exact ⟨.inl fun _ _ h => congrArg (fun x : Str => decide (x ≠ str!"BLACK")) h, .inr trivial⟩

/-- The fields of a viewport that are written only if it has its own coordinate system. -/
def ownUcs : List Nat := [29, 30, 31, 32, 33, 34, 35]

theorem steady_viewPort (wh : Bool) : ∀ g ∈ Tables.viewPort.all wh,
    Steady [] g ∨ ∃ j ∈ ownUcs, g.writes j = true := by
  have key : ∀ g ∈ Tables.viewPort.all wh,
      (ownUcs.any fun j => g.writes j) = true ∨ Steady [] g := by
    simp only [TableKind.all, Tables.viewPort, Tables.viewPortHead, Tables.viewPortCmds,
      List.cons_append, List.nil_append]
    repeat' first
      | exact fun _ h => absurd h List.not_mem_nil
      | (refine List.forall_mem_cons.mpr ⟨?_, ?_⟩)
      | exact .inl rfl
      | exact .inr (steady_always (by intro _; with_reducible rfl))
      | exact .inr ⟨.inl fun _ _ _ => rfl, .inr trivial⟩
      | exact .inr ⟨.inl fun _ _ h => congrArg (fun x : I16 => decide (x ≠ _)) h, .inr trivial⟩
      | exact .inr ⟨.inl fun _ _ h => congrArg (fun x : I32 => decide (x ≠ _)) h, .inr trivial⟩
      | exact .inr ⟨.inl fun _ _ h => congrArg (fun x : Str => decide (x ≠ str!"BLACK")) h,
          .inr trivial⟩
      | exact .inr trivial
  intro g hg
  rcases key g hg with h | h
  · obtain ⟨j, hj, hw⟩ := List.any_eq_true.mp h
    exact .inr ⟨j, hj, hw⟩
  · exact .inl h

/-- The conditions of the variables of the header: only handles have one. -/
theorem steady_header : ∀ g ∈ Header.known, Steady [] g ∧
    ∀ i, i ∈ Header.nondet → g.writes i = true → ∀ r, g.cond r = true := by
  intro g hg
  obtain ⟨c, hc, rfl⟩ := List.mem_map.mp hg
  have hc := (List.mem_filter.mp hc).1
  have key : ∀ k, k ∉ Header.nondet → ∀ x : HCmd Header.decls,
      (Header.cmds.filter fun c => c.g.writes k) = [x] → x.g.writes k = true → Steady [] x.g →
      c.g.writes k = true →
      Steady [] c.g ∧ ∀ i, i ∈ Header.nondet → c.g.writes i = true → ∀ r, c.g.cond r = true := by
    intro k hk x hf hx hs hw
    have hm := List.mem_filter (p := fun c : HCmd Header.decls => c.g.writes k).mpr ⟨hc, hw⟩
    rw [hf, List.mem_singleton] at hm
    subst hm
    refine ⟨hs, fun i hi hwi => ?_⟩
    have : i = k := by
      unfold GCmd.writes at hwi hw
      split at hwi
      · rename_i hcm
        rw [hcm] at hw
        simp only [beq_iff_eq] at hwi hw
        omega
      · cases hwi
    subst this
    exact absurd hi hk
  by_cases h : ([28, 213, 252, 259, 260].any fun k => c.g.writes k) = true
  · simp only [List.any_cons, List.any_nil, Bool.or_false, Bool.or_eq_true] at h
    rcases h with h | h | h | h | h
    · exact key 28 (by decide) _ header_handles.1.choose_spec rfl
        (steady_own _ _ _ (fun x => !(Ty.rustEq _ x _)) trivial) h
    · exact key 213 (by decide) _ header_handles.2.1.choose_spec rfl
        (steady_own _ _ _ (fun x => !(Ty.rustEq _ x _)) trivial) h
    · exact key 252 (by decide) _ header_handles.2.2.1.choose_spec rfl
        (steady_own _ _ _ (fun x => !(Ty.rustEq _ x _)) trivial) h
    · exact key 259 (by decide) _ header_handles.2.2.2.1.choose_spec rfl
        (steady_own _ _ _ (fun x => !(Ty.rustEq _ x _)) trivial) h
    · exact key 260 (by decide) _ header_handles.2.2.2.2.choose_spec rfl
        (steady_own _ _ _ (fun x => !(Ty.rustEq _ x _)) trivial) h
  · have ha : ∀ r, c.g.cond r = true := fun r => by
      have := header_conds r c hc
      rw [Bool.eq_false_iff.mpr h, Bool.false_or] at this
      exact this
    exact ⟨steady_always ha, fun _ _ _ => ha⟩

end Dxf
