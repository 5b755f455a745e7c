import Verif.Model.Settings
import Verif.Lemmas.Styles
import Verif.Props.Header

/-! The variables of the header, written and read (C82). -/

namespace Dxf

/-- The arms for the values of a variable. -/
def varArms {ds : List Decl} (vars : List (HVar ds)) (n : Str) : List (Arm ds) :=
  match findVar vars n with
  | some h => h.arms
  | none => []

theorem set_apply {ds : List Decl} {vars : List (HVar ds)} {n : Str} {p : CodePair} {r r' : Rec ds}
    (h : setHeaderValue vars n p r = .ok r') : applyPair (varArms vars n) r p = .ok r' := by
  unfold setHeaderValue at h
  unfold varArms applyPair
  cases hv : findVar vars n with
  | none => rw [hv] at h; exact h
  | some v =>
    rw [hv] at h
    change (match findArm v.arms p.code with
      | some a => a.act.apply r p
      | none => .error _) = _ at h
    change (match findArm v.arms p.code with
      | some a => a.act.apply r p
      | none => .ok r) = _
    cases ha : findArm v.arms p.code with
    | none => rw [ha] at h; cases h
    | some a => rw [ha] at h; exact h

/-- What is read for one variable. -/
theorem values_fold {ds : List Decl} {vars : List (HVar ds)} {n : Str} {ps : List CodePair}
    (hc : ∀ p ∈ ps, p.code ≠ 0 ∧ p.code ≠ 9 ∧ p.code ≠ 999) {q : CodePair} (hq : q.code = 0 ∨ q.code = 9)
    {s t : Stream} {fuel : Nat} {r r' : Rec ds}
    (h : headerValues vars n fuel r (toStream ps ++ some (.ok q) :: s) = (.ok r', t)) :
    foldPairs (varArms vars n) r ps = .ok r' ∧ t = some (.ok q) :: s := by
  induction ps generalizing r fuel with
  | nil =>
    cases fuel with
    | zero => cases h
    | succ f =>
      rw [headerValues, toStream_nil, List.nil_append, Rd.bind_ok (Rd.next?_cons (by omega) _)] at h
      simp only at h
      rw [if_pos hq] at h
      cases h
      exact ⟨rfl, rfl⟩
  | cons p ps ih =>
    cases fuel with
    | zero => cases h
    | succ f =>
      have hp := hc p List.mem_cons_self
      rw [headerValues, toStream_cons, List.cons_append, Rd.bind_ok (Rd.next?_cons hp.2.2 _)] at h
      simp only at h
      rw [if_neg (by omega)] at h
      cases h1 : setHeaderValue vars n p r with
      | error e =>
        rw [h1] at h
        cases h
      | ok r1 =>
        rw [Rd.bind_ok (m := Rd.lift _) (a := r1) (by rw [Rd.run_lift, h1])] at h
        rw [foldPairs, set_apply h1]
        exact ih (fun q hq => hc q (List.mem_cons_of_mem _ hq)) h

/-- Variable after variable. -/
def foldVars {ds : List Decl} (vars : List (HVar ds)) (r : Rec ds) :
    List (Str × List CodePair) → Except DxfErr (Rec ds)
  | [] => .ok r
  | v :: vs =>
    match foldPairs (varArms vars v.1) r v.2 with
    | .ok r1 => foldVars vars r1 vs
    | .error e => .error e

theorem header_vars {ds : List Decl} {vars : List (HVar ds)} {vs : List (Str × List CodePair)}
    (hc : ∀ v ∈ vs, ∀ p ∈ v.2, p.code ≠ 0 ∧ p.code ≠ 9 ∧ p.code ≠ 999) {q : CodePair} (hq : q.code = 0)
    {s t : Stream} {fuel : Nat} {r r' : Rec ds}
    (h : headerLoop vars fuel r (toStream (varPairs vs) ++ some (.ok q) :: s) = (.ok r', t)) :
    foldVars vars r vs = .ok r' := by
  induction vs generalizing r fuel with
  | nil =>
    cases fuel with
    | zero => cases h
    | succ f =>
      change headerLoop vars (f + 1) r (some (.ok q) :: s) = _ at h
      rw [headerLoop, Rd.bind_ok (Rd.next?_cons (by omega) _)] at h
      simp only at h
      rw [if_pos hq] at h
      cases h
      rfl
  | cons v vs ih =>
    cases fuel with
    | zero => cases h
    | succ f =>
      have e : toStream (varPairs (v :: vs)) ++ some (.ok q) :: s =
          some (.ok (.newStr 9 v.1)) :: (toStream v.2 ++ (toStream (varPairs vs) ++ some (.ok q) :: s)) := by
        change toStream ((.newStr 9 v.1 :: v.2) ++ varPairs vs) ++ _ = _
        rw [toStream_append, toStream_cons, List.cons_append, List.cons_append, List.append_assoc]
      obtain ⟨q', s', hs, hq'⟩ : ∃ q' s', toStream (varPairs vs) ++ some (.ok q) :: s = some (.ok q') :: s' ∧
          (q'.code = 0 ∨ q'.code = 9) := by
        cases vs with
        | nil => exact ⟨q, s, rfl, .inl hq⟩
        | cons w vs => exact ⟨.newStr 9 w.1, _, rfl, .inr rfl⟩
      rw [e, headerLoop, Rd.bind_ok (Rd.next?_cons (by simp [CodePair.newStr]) _)] at h
      simp only at h
      rw [if_neg (by simp [CodePair.newStr]), if_pos (show (CodePair.newStr 9 v.1).code = 9 from rfl),
        Rd.bind_ok (m := Rd.lift (CodePair.newStr 9 v.1).assertString) (a := v.1) rfl] at h
      change Rd.bind _ _ _ = _ at h
      unfold Rd.bind Rd.withFuel at h
      beta_reduce at h
      generalize (toStream v.2 ++ (toStream (varPairs vs) ++ some (.ok q) :: s)).length + 1 = m at h
      cases hl : headerValues vars v.1 m r
          (toStream v.2 ++ (toStream (varPairs vs) ++ some (.ok q) :: s)) with
      | mk x t' =>
        rw [hl] at h
        cases x with
        | error e => cases h
        | ok r1 =>
          rw [hs] at hl
          obtain ⟨h1, rfl⟩ := values_fold (hc v List.mem_cons_self) hq' hl
          rw [foldVars, h1]
          rw [← hs] at h
          exact ih (fun w hw => hc w (List.mem_cons_of_mem _ hw)) h

/-- Other variables leave a value as it is. -/
theorem vars_other {ds : List Decl} {vars : List (HVar ds)} {α : Type} {get : Rec ds → α} {n : Str}
    (other : ∀ m, m ≠ n → ∀ r r' p, applyPair (varArms vars m) r p = .ok r' → get r' = get r)
    {vs : List (Str × List CodePair)} (hn : ∀ v ∈ vs, v.1 ≠ n) {r r' : Rec ds}
    (h : foldVars vars r vs = .ok r') : get r' = get r := by
  have fold : ∀ m, m ≠ n → ∀ (ps : List CodePair) (r r' : Rec ds),
      foldPairs (varArms vars m) r ps = .ok r' → get r' = get r := by
    intro m hm ps
    induction ps with
    | nil => intro r r' h; cases h; rfl
    | cons p ps ih =>
      intro r r' h
      obtain ⟨r1, h1, h2⟩ := fold_cons h
      rw [ih _ _ h2, other m hm _ _ _ h1]
  induction vs generalizing r with
  | nil => cases h; rfl
  | cons v vs ih =>
    rw [foldVars] at h
    cases h1 : foldPairs (varArms vars v.1) r v.2 with
    | error e => rw [h1] at h; cases h
    | ok r1 =>
      rw [h1] at h
      rw [ih (fun w hw => hn w (List.mem_cons_of_mem _ hw)) h]
      exact fold _ (hn v List.mem_cons_self) _ _ _ h1

/-- The value of a variable that is given once. -/
theorem vars_own {ds : List Decl} {vars : List (HVar ds)} {α : Type} {get : Rec ds → α} {n : Str} {a : α}
    (other : ∀ m, m ≠ n → ∀ r r' p, applyPair (varArms vars m) r p = .ok r' → get r' = get r)
    {ps : List CodePair} (own : ∀ r r', foldPairs (varArms vars n) r ps = .ok r' → get r' = a)
    {vs : List (Str × List CodePair)} (hn : (vs.filter fun v => decide (v.1 = n)) = [(n, ps)])
    {r r' : Rec ds} (h : foldVars vars r vs = .ok r') : get r' = a := by
  induction vs generalizing r with
  | nil => cases hn
  | cons v vs ih =>
    rw [foldVars] at h
    rw [List.filter_cons] at hn
    cases h1 : foldPairs (varArms vars v.1) r v.2 with
    | error e => rw [h1] at h; cases h
    | ok r1 =>
      rw [h1] at h
      by_cases hv : v.1 = n
      · rw [if_pos (decide_eq_true hv), List.cons.injEq] at hn
        obtain ⟨rfl, hn⟩ := hn
        have := List.filter_eq_nil_iff.mp hn
        rw [vars_other other (fun w hw => by simpa using this w hw) h]
        exact own _ _ h1
      · rw [if_neg (by simpa using hv)] at hn
        exact ih hn h

/-- Only the arms of the variable change the field. -/
def onlyVar (n : Str) (i : Nat) : Bool :=
  Header.vars.all fun h => decide (h.name = n) || h.arms.all fun a => a.act.spares (.num i)

theorem var_other {n : Str} {i : Nat} (hi : onlyVar n i = true) (m : Str) (hm : m ≠ n)
    (r r' : Rec Header.decls) (p : CodePair) (h : applyPair (varArms Header.vars m) r p = .ok r') :
    r' i = r i := by
  unfold varArms at h
  cases hv : findVar Header.vars m with
  | none => rw [hv] at h; cases h; rfl
  | some w =>
    rw [hv] at h
    have hmem : w ∈ Header.vars := List.mem_of_find?_eq_some hv
    have hname : w.name = m := by simpa using List.find?_some hv
    have := List.all_eq_true.mp hi w hmem
    rw [Bool.or_eq_true, decide_eq_true_eq, hname] at this
    exact arm_other (cs := []) (by simpa using this.resolve_left hm) (by simp) h

/-- A variable that is 0 or 1. -/
theorem asBool_own {on : Bool} {p : CodePair} {o x : Bool}
    (hp : p.value = (CodePair.newI16 70 (if on then 1 else 0)).value)
    (h : FRead.apply (t := .bool) (.set .asBool) o p = .ok x) : x = on := by
  have ha : p.assertI16 = .ok (if on then 1 else 0) := by
    unfold CodePair.assertI16
    rw [hp]
    rfl
  simp only [FRead.apply, RConv.read, ha, Except.map] at h
  cases h
  cases on <;> rfl

/-- The names and pairs of what is written. -/
def HCmd.var {ds : List Decl} (r : Rec ds) (c : HCmd ds) : Str × List CodePair := (c.name, c.g.cmd.emit r)

theorem headerPairs_vars {ds : List Decl} (cmds : List (HCmd ds)) (v : Version) (r : Rec ds) :
    headerPairs cmds v r = varPairs ((cmds.filter fun c => c.g.holds v r).map (HCmd.var r)) := by
  induction cmds with
  | nil => rfl
  | cons c cs ih =>
    change c.emit v r ++ headerPairs cs v r = _
    rw [ih, List.filter_cons]
    unfold HCmd.emit
    by_cases h : c.g.holds v r = true
    · rw [if_pos h, if_pos h]
      rfl
    · rw [if_neg h, if_neg h]
      rfl

theorem vars_named {ds : List Decl} {cmds : List (HCmd ds)} {v : Version} {r : Rec ds} {n : Str}
    {c : HCmd ds} (hf : (cmds.filter fun c => decide (c.name = n)) = [c]) (hc : c.g.holds v r = true) :
    ((cmds.filter fun c => c.g.holds v r).map (HCmd.var r)).filter (fun x => decide (x.1 = n)) =
      [c.var r] := by
  rw [List.filter_map, List.filter_filter]
  have e : (cmds.filter fun a => ((fun x : Str × List CodePair => decide (x.1 = n)) ∘ HCmd.var r) a &&
      a.g.holds v r) = [c] := by
    have : ∀ a : HCmd ds, (((fun x : Str × List CodePair => decide (x.1 = n)) ∘ HCmd.var r) a &&
      a.g.holds v r) = (a.g.holds v r && decide (a.name = n)) := fun a => Bool.and_comm _ _
    simp only [this]
    rw [← List.filter_filter, hf, List.filter_cons, if_pos hc, List.filter_nil]
  rw [e]
  rfl

end Dxf
