import Verif.Model.EKind
import Verif.Lemmas.Entry

/-! Records whose reader has local variables: which field a code is stored in depends on the
pairs read before. -/

namespace Dxf

variable {ds : List Decl} {M : Type}

/-- Reads pairs in a changing mode. -/
def foldStaged (arms : M → List (Arm ds)) (next : M → CodePair → M) :
    M × Rec ds → List CodePair → Except DxfErr (M × Rec ds)
  | st, [] => .ok st
  | st, p :: ps =>
    match applyPair (arms st.1) st.2 p with
    | .ok r => foldStaged arms next (next st.1 p, r) ps
    | .error e => .error e

/-- The statements of a version. -/
def gated (v : Version) (cmds : List (GCmd ds)) : List (GCmd ds) :=
  cmds.filter fun g => versionGate g.min g.max v

/-- Some pair with the code. -/
def probe (c : Int) : CodePair := ⟨c, .short 0#16, 0⟩

/-- The mode after reading what is written for a field, if that does not depend on the value.
`vals` are the codes whose value matters for the mode. -/
def FWrite.modeAfter [DecidableEq M] (next : M → CodePair → M) (vals : Int → Bool) (m : M) :
    {t : Ty} → FWrite t → Option M
  | _, .one c _ => if vals c then none else some (next m (probe c))
  | _, w => if w.codes.all fun c => !vals c && decide (next m (probe c) = m) then some m else none

/-- The mode after reading what the statement emits, if that does not depend on the record. -/
def modeAfter [DecidableEq M] (next : M → CodePair → M) (vals : Int → Bool) (m : M) :
    Cmd ds → Option M
  | .const p => some (next m p)
  | .field _ w => w.modeAfter next vals m
  | .computed c _ _ => if vals c then none else some (next m (probe c))

/-- The statements with the mode in which what they emit is read, and the mode in the end. -/
def annotate [DecidableEq M] (next : M → CodePair → M) (vals : Int → Bool) :
    M → List (GCmd ds) → Option (List (M × GCmd ds) × M)
  | m, [] => some ([], m)
  | m, g :: gs =>
    match modeAfter next vals m g.cmd with
    | none => none
    | some m' => (annotate next vals m' gs).map fun x => ((m, g) :: x.1, x.2)

/-- `fieldOK` with modes. -/
def fieldOKa (arms : M → List (Arm ds)) (as : List (M × GCmd ds)) (i : Nat) : Bool :=
  as.all fun x =>
    match x.2.cmd.onField i with
    | some w => w.undoneBy (armOn (arms x.1) i)
    | none => x.2.cmd.codes.all fun c => !hits (arms x.1) c i

/-- A field that grows starts empty and at most one statement writes it. -/
def growOKa (cmds : List (GCmd ds)) (i : Nat) : Bool :=
  !(tyAt ds i).grows ||
  ((tyAt ds i).isEmpty (Rec.dflt ds i) &&
    decide ((cmds.filter fun g => g.writes i).length ≤ 1))

/-! ### Emitting and reading statement by statement -/

theorem emitAll_gated (cmds : List (GCmd ds)) (v : Version) (r : Rec ds) :
    emitAll (gated v cmds) v r = emitAll cmds v r := by
  induction cmds with
  | nil => rfl
  | cons g gs ih =>
    simp only [gated, emitAll] at ih
    simp only [gated, List.filter_cons, emitAll, List.flatMap_cons]
    split
    · rw [List.flatMap_cons, ih]
    · rename_i h
      rw [ih, show g.emit v r = [] by unfold GCmd.emit GCmd.holds; simp [h]]
      rfl

theorem foldStaged_append (arms : M → List (Arm ds)) (next : M → CodePair → M)
    (a b : List CodePair) (st : M × Rec ds) :
    foldStaged arms next st (a ++ b) = (match foldStaged arms next st a with
      | .ok st' => foldStaged arms next st' b
      | .error e => .error e) := by
  induction a generalizing st with
  | nil => rfl
  | cons p ps ih =>
    simp only [List.cons_append, foldStaged]
    cases applyPair (arms st.1) st.2 p with
    | ok r' => exact ih _
    | error e => rfl

theorem foldStaged_neutral (arms : M → List (Arm ds)) (next : M → CodePair → M) (m : M)
    (ps : List CodePair) (h : ∀ p ∈ ps, next m p = m) {r r' : Rec ds}
    (hf : foldPairs (arms m) r ps = .ok r') : foldStaged arms next (m, r) ps = .ok (m, r') := by
  induction ps generalizing r with
  | nil =>
    simp only [foldPairs, Except.ok.injEq] at hf
    rw [foldStaged, hf]
  | cons p ps ih =>
    rw [foldPairs] at hf
    rw [foldStaged]
    simp only
    cases h1 : applyPair (arms m) r p with
    | error e => rw [h1] at hf; cases hf
    | ok r1 =>
      rw [h1] at hf
      simp only at hf ⊢
      rw [h p List.mem_cons_self]
      exact ih (fun q hq => h q (List.mem_cons_of_mem _ hq)) hf

theorem foldStaged_single (arms : M → List (Arm ds)) (next : M → CodePair → M) (m : M)
    (p : CodePair) {r r' : Rec ds} (hf : foldPairs (arms m) r [p] = .ok r') :
    foldStaged arms next (m, r) [p] = .ok (next m p, r') := by
  rw [foldPairs] at hf
  rw [foldStaged]
  simp only
  cases h1 : applyPair (arms m) r p with
  | error e => rw [h1] at hf; cases hf
  | ok r1 =>
    rw [h1] at hf
    simp only [foldPairs, Except.ok.injEq] at hf
    subst hf
    rfl

/-! ### Everything that is written can be read -/

/-- The representable vertex for which the same is written. -/
def LwVertex.norm (withId : Bool) (v : LwVertex) : LwVertex :=
  let z (x : F64) : F64 := if F64.rustEq x F64.zero then F64.zero else x
  { v with
    id := if withId then v.id else 0#32
    startingWidth := z v.startingWidth
    endingWidth := z v.endingWidth
    bulge := z v.bulge }

theorem LwVertex.norm_pairs (withId : Bool) (v : LwVertex) :
    (v.norm withId).pairs withId = v.pairs withId := by
  have h (x : F64) (c : Int) : (if F64.rustEq (if F64.rustEq x F64.zero then F64.zero else x)
      F64.zero then [] else [CodePair.newF64 c (if F64.rustEq x F64.zero then F64.zero else x)]) =
      if F64.rustEq x F64.zero then [] else [CodePair.newF64 c x] := by
    by_cases hx : F64.rustEq x F64.zero = true
    · have h0 : F64.rustEq F64.zero F64.zero = true := by decide
      rw [if_pos hx, if_pos h0, if_pos hx]
    · rw [if_neg hx]
  unfold LwVertex.pairs LwVertex.norm
  simp only [h]
  cases withId <;> rfl

theorem LwVertex.norm_fits (withId : Bool) (v : LwVertex) : (v.norm withId).Fits withId := by
  have h (x : F64) (hx : F64.rustEq (if F64.rustEq x F64.zero then F64.zero else x)
      F64.zero = true) : (if F64.rustEq x F64.zero then F64.zero else x) = F64.zero := by
    split
    · rfl
    · rw [if_neg ‹_›] at hx; exact absurd hx ‹_›
  constructor
  · intro hw; simp [LwVertex.norm, hw]
  · simp only [LwVertex.norm, List.mem_cons, List.not_mem_nil, or_false, forall_eq_or_imp, forall_eq]
    exact ⟨h _, h _, h _⟩

/-- The statement writes the vertices of an `LwPolyline`. -/
def FWrite.isLw : {t : Ty} → FWrite t → Bool
  | _, .lw _ => true
  | _, .one _ _ => false
  | _, .many _ _ => false
  | _, .axes _ => false
  | _, .points _ => false

theorem FWrite.lw_ok {t : Ty} (look : Int → Option (FRead t)) (w : FWrite t)
    (hl : w.isLw = true) (hu : w.undoneBy look = true) (v old : t.den) :
    ∃ x, foldVal look old (w.emit v) = .ok x := by
  cases w with
  | lw withId =>
    have he : (FWrite.lw withId).emit v =
        (FWrite.lw withId).emit (List.map (LwVertex.norm withId) v) := by
      revert v
      change ∀ v : List LwVertex, v.flatMap (LwVertex.pairs withId) =
        (v.map (LwVertex.norm withId)).flatMap (LwVertex.pairs withId)
      intro v
      induction v with
      | nil => rfl
      | cons x xs ih => rw [List.map_cons, List.flatMap_cons, List.flatMap_cons, ih,
          LwVertex.norm_pairs]
    rw [he]
    refine ⟨_, FWrite.emit_fold look _ hu ([] : List LwVertex) _ old ?_⟩
    intro x hx
    revert hx
    revert v
    change ∀ v : List LwVertex, _ → x ∈ v.map (LwVertex.norm withId) → _
    intro v _ hx
    obtain ⟨y, _, rfl⟩ := List.mem_map.mp hx
    exact LwVertex.norm_fits withId y
  | one => cases hl
  | many => cases hl
  | axes => cases hl
  | points => cases hl

/-- What the statement emits is read without error. -/
def Cmd.safeL (arms : List (Arm ds)) (c : Cmd ds) : Bool :=
  c.safe arms ||
  match c with
  | .field i w => w.isLw && w.undoneBy (armOn arms i)
  | _ => false

theorem Cmd.safeL_ok (arms : List (Arm ds)) (c : Cmd ds) (h : c.safeL arms = true) (r r0 : Rec ds) :
    ∃ r1, foldPairs arms r0 (c.emit r) = .ok r1 := by
  simp only [Cmd.safeL, Bool.or_eq_true] at h
  rcases h with h | h
  · exact foldPairs_ok arms _ (fun p hp => c.safe_accepts arms h r p hp) r0
  · cases c with
    | const p => cases h
    | computed => cases h
    | field i w =>
      simp only [Bool.and_eq_true] at h
      obtain ⟨x, hx⟩ := w.lw_ok (armOn arms i) h.1 h.2 (r i) (r0 i)
      obtain ⟨r1, h1, _⟩ := foldPairs_val arms i (w.emit (r i))
        (fun p hp => w.undoneBy_some _ h.2 _ (w.mem_emit _ p hp)) r0 hx
      exact ⟨r1, h1⟩

section
variable [DecidableEq M]

theorem modeAfter_step (arms : M → List (Arm ds)) (next : M → CodePair → M) (vals : Int → Bool)
    (hn : ∀ m (p q : CodePair), p.code = q.code → vals p.code = false → next m p = next m q)
    (m m' : M) (c : Cmd ds) (hm : modeAfter next vals m c = some m') (r r0 r1 : Rec ds)
    (hf : foldPairs (arms m) r0 (c.emit r) = .ok r1) :
    foldStaged arms next (m, r0) (c.emit r) = .ok (m', r1) := by
  have hmany (ps : List CodePair) (cs : List Int) (hcs : ∀ p ∈ ps, p.code ∈ cs)
      (hm : (if cs.all fun c => !vals c && decide (next m (probe c) = m) then some m else none) =
        some m') (hf : foldPairs (arms m) r0 ps = .ok r1) :
      foldStaged arms next (m, r0) ps = .ok (m', r1) := by
    split at hm
    · rename_i hall
      simp only [Option.some.injEq] at hm
      subst hm
      refine foldStaged_neutral arms next m _ (fun p hp => ?_) hf
      have := List.all_eq_true.mp hall p.code (hcs p hp)
      simp only [Bool.and_eq_true, Bool.not_eq_true', decide_eq_true_eq] at this
      rw [hn m p (probe p.code) rfl this.1, this.2]
    · cases hm
  cases c with
  | const p =>
    simp only [modeAfter, Option.some.injEq] at hm
    subst hm
    exact foldStaged_single arms next m p hf
  | computed code c f =>
    simp only [modeAfter] at hm
    split at hm
    · cases hm
    · rename_i hv
      simp only [Option.some.injEq] at hm
      subst hm
      have := foldStaged_single arms next m (c.write code (f r)) hf
      rw [hn m _ (probe code) (c.write_code code _)
        (by rw [c.write_code]; simpa using hv)] at this
      exact this
  | field i w =>
    simp only [Cmd.emit] at hf ⊢
    rw [_root_.Dxf.modeAfter] at hm
    revert hm hf
    generalize r i = x
    revert w x
    generalize tyAt ds i = t
    intro w x hm hf
    cases w with
    | one code c =>
      simp only [FWrite.modeAfter] at hm
      split at hm
      · cases hm
      · rename_i hv
        simp only [Option.some.injEq] at hm
        subst hm
        have := foldStaged_single arms next m (c.write code x) hf
        rw [hn m _ (probe code) (c.write_code code _)
          (by rw [c.write_code]; simpa using hv)] at this
        exact this
    | _ => exact hmany _ _ (fun p hp => FWrite.mem_emit _ _ p hp) hm hf

theorem annotate_mem {next : M → CodePair → M}
    {vals : Int → Bool} {m m' : M} {cmds : List (GCmd ds)} {as : List (M × GCmd ds)}
    (h : annotate next vals m cmds = some (as, m')) : as.map Prod.snd = cmds := by
  induction cmds generalizing m as with
  | nil =>
    simp only [annotate, Option.some.injEq, Prod.mk.injEq] at h
    simp [← h.1]
  | cons g gs ih =>
    rw [annotate] at h
    split at h
    · cases h
    · rename_i m1 _
      cases h2 : annotate next vals m1 gs with
      | none => rw [h2] at h; cases h
      | some y =>
        rw [h2] at h
        simp only [Option.map_some, Option.some.injEq, Prod.mk.injEq] at h
        rw [← h.1]
        simp [ih (m := m1) (as := y.1) (by rw [h2, ← h.2])]

/-- Reading what the statements emit succeeds, ends in the expected mode, and stores in field
`i` what the statements for field `i` wrote. -/
theorem staged_fold_modes (arms : M → List (Arm ds)) (next : M → CodePair → M) (vals : Int → Bool)
    (hn : ∀ m (p q : CodePair), p.code = q.code → vals p.code = false → next m p = next m q)
    (v : Version) (r : Rec ds) (cmds : List (GCmd ds))
    (hgate : ∀ g ∈ cmds, versionGate g.min g.max v = true)
    (m m' : M) (as : List (M × GCmd ds)) (ha : annotate next vals m cmds = some (as, m'))
    (hcond : ∀ x ∈ as, (∀ r, x.2.cond r = true) ∨ modeAfter next vals x.1 x.2.cmd = some x.1)
    (hsafe : ∀ x ∈ as, ∀ r0, ∃ r1, foldPairs (arms x.1) r0 (x.2.cmd.emit r) = .ok r1)
    (r0 : Rec ds) :
    ∃ r', foldStaged arms next (m, r0) (emitAll cmds v r) = .ok (m', r') ∧
      ∀ i, fieldOKa arms as i = true → (∀ x ∈ as, CustomFrame (arms x.1)) →
        Representable cmds v r i → r' i = afterAll i cmds v r (r0 i) := by
  induction cmds generalizing m as r0 with
  | nil =>
    simp only [annotate, Option.some.injEq, Prod.mk.injEq] at ha
    obtain ⟨rfl, rfl⟩ := ha
    exact ⟨r0, rfl, fun _ _ _ _ => rfl⟩
  | cons g gs ih =>
    rw [annotate] at ha
    cases hm : modeAfter next vals m g.cmd with
    | none => rw [hm] at ha; cases ha
    | some m1 =>
      rw [hm] at ha
      simp only [Option.map_eq_some_iff, Prod.mk.injEq, Prod.exists] at ha
      obtain ⟨as1, m2, ha1, rfl, rfl⟩ := ha
      obtain ⟨r1, hr1⟩ : ∃ r1, foldPairs (arms m) r0 (g.emit v r) = .ok r1 ∧
          foldStaged arms next (m, r0) (g.emit v r) = .ok (m1, r1) := by
        unfold GCmd.emit
        by_cases hh : g.holds v r = true
        · rw [if_pos hh]
          obtain ⟨r1, h1⟩ := hsafe (m, g) List.mem_cons_self r0
          exact ⟨r1, h1, modeAfter_step arms next vals hn m m1 g.cmd hm r r0 r1 h1⟩
        · rw [if_neg hh]
          have : m1 = m := by
            rcases hcond (m, g) List.mem_cons_self with hc | hc
            · exact absurd (by rw [GCmd.holds, hgate g List.mem_cons_self, hc]; rfl) hh
            · simp only at hc
              rw [hc] at hm
              exact (Option.some.inj hm).symm
          subst this
          exact ⟨r0, rfl, rfl⟩
      obtain ⟨r', h', hv⟩ := ih (fun x hx => hgate x (List.mem_cons_of_mem _ hx))
        m1 as1 ha1 (fun x hx => hcond x (List.mem_cons_of_mem _ hx))
        (fun x hx => hsafe x (List.mem_cons_of_mem _ hx)) r1
      refine ⟨r', ?_, fun i hok hcf hrep => ?_⟩
      · simp only [emitAll, List.flatMap_cons] at h' ⊢
        rw [foldStaged_append, hr1.2]
        exact h'
      · simp only [fieldOKa, List.all_cons, Bool.and_eq_true] at hok
        have h1 : r1 i = afterAll i [g] v r (r0 i) := by
          refine fold_afterAll (hcf (m, g) List.mem_cons_self) i [g] v r ?_
            (fun g' hg' => hrep g' (by rw [List.mem_singleton.mp hg']; exact List.mem_cons_self)) ?_
          · simp only [fieldOK, List.all_cons, List.all_nil, Bool.and_true]
            exact hok.1
          · simpa [emitAll] using hr1.1
        rw [hv i hok.2 (fun x hx => hcf x (List.mem_cons_of_mem _ hx))
          (fun g' hg' => hrep g' (List.mem_cons_of_mem _ hg')), h1]
        simp only [afterAll]
        cases g.cmd.onField i <;> rfl

/-- Reading what the statements emit succeeds, ends in the expected mode, and stores in field
`i` what the statements for field `i` wrote. -/
theorem staged_fold (arms : M → List (Arm ds)) (next : M → CodePair → M) (vals : Int → Bool)
    (hn : ∀ m (p q : CodePair), p.code = q.code → vals p.code = false → next m p = next m q)
    (v : Version) (r : Rec ds) (cmds : List (GCmd ds))
    (hgate : ∀ g ∈ cmds, versionGate g.min g.max v = true)
    (hcond : ∀ g ∈ cmds, (∀ r, g.cond r = true) ∨ ∀ m, modeAfter next vals m g.cmd = some m)
    (m m' : M) (as : List (M × GCmd ds)) (ha : annotate next vals m cmds = some (as, m'))
    (hsafe : ∀ x ∈ as, ∀ r0, ∃ r1, foldPairs (arms x.1) r0 (x.2.cmd.emit r) = .ok r1)
    (r0 : Rec ds) :
    ∃ r', foldStaged arms next (m, r0) (emitAll cmds v r) = .ok (m', r') ∧
      ∀ i, fieldOKa arms as i = true → (∀ x ∈ as, CustomFrame (arms x.1)) →
        Representable cmds v r i → r' i = afterAll i cmds v r (r0 i) :=
  staged_fold_modes arms next vals hn v r cmds hgate m m' as ha
    (fun x hx => (hcond x.2 (annotate_mem ha ▸ List.mem_map_of_mem hx)).imp id fun h => h x.1) hsafe r0

end

/-! ### Fields -/

theorem gated_gate (v : Version) (cmds : List (GCmd ds)) :
    ∀ g ∈ gated v cmds, versionGate g.min g.max v = true := by
  intro g hg
  exact (List.mem_filter.mp hg).2

theorem gated_mem {v : Version} {cmds : List (GCmd ds)} {g : GCmd ds} (h : g ∈ gated v cmds) :
    g ∈ cmds := (List.mem_filter.mp h).1

theorem mem_gated {v : Version} {cmds : List (GCmd ds)} {g : GCmd ds} {r : Rec ds} (h : g ∈ cmds)
    (hh : g.holds v r = true) : g ∈ gated v cmds := by
  refine List.mem_filter.mpr ⟨h, ?_⟩
  unfold GCmd.holds at hh
  simp only [Bool.and_eq_true] at hh
  exact hh.1

theorem written_gated (cmds : List (GCmd ds)) (v : Version) (r : Rec ds) (i : Nat) :
    Written (gated v cmds) v r i ↔ Written cmds v r i :=
  ⟨fun ⟨g, hg, h1, h2⟩ => ⟨g, gated_mem hg, h1, h2⟩,
    fun ⟨g, hg, h1, h2⟩ => ⟨g, mem_gated hg h2, h1, h2⟩⟩

theorem representable_gated {cmds : List (GCmd ds)} {v : Version} {r : Rec ds} {i : Nat}
    (h : Representable cmds v r i) : Representable (gated v cmds) v r i :=
  fun g hg => h g (gated_mem hg)

theorem gated_append (v : Version) (a b : List (GCmd ds)) :
    gated v (a ++ b) = gated v a ++ gated v b := List.filter_append ..

/-- The value of a field after reading, once the coordinates of points are combined. -/
theorem afterAll_value (i : Nat) (cmds : List (GCmd ds)) (v : Version) (r : Rec ds)
    (hl : growOKa (gated v cmds) i = true) (hrep : Representable cmds v r i) :
    (tyAt ds i).finish (afterAll i (gated v cmds) v r (Rec.dflt ds i)) =
      if Written cmds v r i then r i else Rec.dflt ds i := by
  have hrep' := representable_gated hrep
  unfold growOKa at hl
  cases hg : (tyAt ds i).grows with
  | false =>
    rw [Ty.finish_of_not_grows hg]
    split
    · exact afterAll_written i _ v r hrep' hg _ (.inl rfl) (.inl ((written_gated ..).mpr ‹_›))
    · exact afterAll_not_written i _ v r _ fun h => absurd ((written_gated ..).mp h) ‹_›
  | true =>
    rw [hg] at hl
    simp only [Bool.not_true, Bool.false_or, Bool.and_eq_true, decide_eq_true_eq] at hl
    split
    · refine afterAll_grow i _ v r hrep' hg hl.1 ?_ ((written_gated ..).mpr ‹_›)
      refine le_trans (List.Sublist.length_le ?_) hl.2
      refine List.monotone_filter_right _ ?_
      intro g h
      simp only [Bool.and_eq_true] at h
      exact h.1
    · rw [afterAll_not_written i _ v r _ fun h => absurd ((written_gated ..).mp h) ‹_›]
      exact Ty.finish_empty _ hl.1

/-- The arm of the code stores only in fields of `skip` (or nowhere). -/
def hitsOnly (arms : List (Arm ds)) (skip : List Nat) (code : Int) : Bool :=
  match findArm arms code with
  | none => true
  | some a =>
    match a.act with
    | .on j _ => skip.contains j || decide (ds.length ≤ j)
    | .custom ts _ => ts.all fun j => skip.contains j

/-- The statement is undone by the arms, except that fields of `skip` do not matter. -/
def Cmd.clean (arms : List (Arm ds)) (skip : List Nat) : Cmd ds → Bool
  | .const p => hitsOnly arms skip p.code
  | .computed c _ _ => hitsOnly arms skip c
  | .field i w =>
    bif skip.contains i then w.codes.all (hitsOnly arms skip) else w.undoneBy (armOn arms i)

theorem hitsOnly_spec {arms : List (Arm ds)} {skip : List Nat} {code : Int}
    (h : hitsOnly arms skip code = true) {i : Nat} (hi : i ∉ skip) (hl : i < ds.length) :
    hits arms code i = false := by
  unfold hitsOnly at h
  unfold hits
  cases hf : findArm arms code with
  | none => rfl
  | some a =>
    rw [hf] at h
    simp only at h ⊢
    cases ha : a.act with
    | on j act =>
      rw [ha] at h
      simp only [Bool.or_eq_true, List.contains_eq_mem, decide_eq_true_eq] at h
      simp only [Act.hits, beq_eq_false_iff_ne, ne_eq]
      rintro rfl
      rcases h with h | h
      · exact hi h
      · omega
    | custom ts f =>
      rw [ha] at h
      simp only [List.all_eq_true, List.contains_eq_mem, decide_eq_true_eq] at h
      simp only [Act.hits, List.contains_eq_mem, decide_eq_false_iff_not]
      exact fun hm => hi (h i hm)

theorem clean_fieldOKa {arms : M → List (Arm ds)} {as : List (M × GCmd ds)} {skip : List Nat}
    (h : (as.all fun x => x.2.cmd.clean (arms x.1) skip) = true) {i : Nat} (hi : i ∉ skip)
    (hl : i < ds.length) : fieldOKa arms as i = true := by
  simp only [fieldOKa, List.all_eq_true] at h ⊢
  intro x hx
  have hc := h x hx
  cases hw : x.2.cmd.onField i with
  | some w =>
    have := onField_eq hw
    rw [this] at hc
    simpa [Cmd.clean, hi] using hc
  | none =>
    simp only [List.all_eq_true, Bool.not_eq_true']
    intro c hcc
    cases hcmd : x.2.cmd with
    | const p =>
      rw [hcmd] at hc hcc
      simp only [Cmd.codes, List.mem_singleton] at hcc
      subst hcc
      exact hitsOnly_spec hc hi hl
    | computed code k f =>
      rw [hcmd] at hc hcc
      simp only [Cmd.codes, List.mem_singleton] at hcc
      subst hcc
      exact hitsOnly_spec hc hi hl
    | field j w =>
      have hji : j ≠ i := by
        rintro rfl
        rw [hcmd] at hw
        simp [Cmd.onField] at hw
      rw [hcmd] at hc hcc
      simp only [Cmd.clean] at hc
      by_cases hj : j ∈ skip
      · simp only [List.contains_eq_mem, hj, decide_true, cond_true] at hc
        exact hitsOnly_spec (List.all_eq_true.mp hc c hcc) hi hl
      · simp only [List.contains_eq_mem, hj, decide_false, cond_false] at hc
        have h1 := w.undoneBy_some _ hc c hcc
        unfold armOn at h1
        unfold hits
        cases hf : findArm (arms x.1) c with
        | none => rfl
        | some a =>
          rw [hf] at h1
          simp only at h1 ⊢
          cases ha : a.act with
          | custom ts f => rw [ha] at h1; simp at h1
          | on j' act =>
            rw [ha] at h1
            simp only at h1
            split at h1
            · simp only [Act.hits, beq_eq_false_iff_ne, ne_eq]
              omega
            · simp at h1

/-! ### The loop -/

/-- What a reader with modes does with one pair. -/
def stagedStep (arms : M → List (Arm ds)) (next : M → CodePair → M) (pair : CodePair)
    (st : M × Entry ds) : Rd (M × Entry ds) := do
  let e ← Entry.apply (arms st.1) pair st.2
  return (next st.1 pair, e)

variable {eof : Bool}

theorem runs_staged (arms : M → List (Arm ds)) (next : M → CodePair → M) (ps : List CodePair)
    (hc : ∀ p ∈ ps, plainCode p.code = true) (m : M) (it : Entry ds) {m' : M} {r : Rec ds}
    (h : foldStaged arms next (m, it.fields) ps = .ok (m', r)) (rest : Stream) :
    Runs eof (stagedStep arms next) (m, it) ps (m', { it with fields := r }) rest := by
  induction ps generalizing m it with
  | nil =>
    simp only [foldStaged, Except.ok.injEq, Prod.mk.injEq] at h
    obtain ⟨rfl, rfl⟩ := h
    exact Runs.nil _ _
  | cons p ps ih =>
    rw [foldStaged] at h
    simp only at h
    cases h1 : applyPair (arms m) it.fields p with
    | error e => rw [h1] at h; cases h
    | ok r1 =>
      rw [h1] at h
      simp only at h
      have hp := hc p List.mem_cons_self
      simp only [plainCode, ne_eq, Bool.and_eq_true, decide_eq_true_eq, decide_not,
        Bool.not_eq_true', decide_eq_false_iff_not] at hp
      have := ih (fun q hq => hc q (List.mem_cons_of_mem _ hq)) (next m p) { it with fields := r1 } h
      refine Runs.trans (a := [p]) (b := ps) (Runs.one hp.1.1.1 hp.2 ?_) this
      simp [stagedStep, Entry.apply, hp, Rd.run_bind, h1]

theorem runs_group_staged (arms : M → List (Arm ds)) (next : M → CodePair → M) (m : M)
    (hn : ∀ p : CodePair, p.code = 102 → next m p = m) (g : ExtGroup)
    (hg : ExtItem.PlainList g.items) (it : Entry ds) (rest : Stream) :
    Runs eof (stagedStep arms next) (m, it) g.pairs
      (m, { it with ext := it.ext ++ ExtGroup.kept [g] }) rest := by
  unfold ExtGroup.pairs
  by_cases hne : g.items = []
  · simp only [hne, List.isEmpty_nil, if_true, ExtGroup.kept]
    simpa [hne] using Runs.nil (m, it) rest
  · have hne' : g.items.isEmpty = false := by simpa using hne
    rw [if_neg (by simp [hne'])]
    refine Runs.one (by simp [CodePair.newStr]) (by simp [CodePair.newStr]) ?_
    have := ExtGroup.read_written g hne hg 0 rest
    have h2 := hn (.newStr 102 ('{' :: g.name)) rfl
    simp only [CodePair.newStr] at this h2
    simp [stagedStep, Entry.apply, CodePair.newStr, Rd.run_bind, CodePair.assertString, this,
      ExtGroup.kept, hne', h2]

theorem runs_groups_staged (arms : M → List (Arm ds)) (next : M → CodePair → M) (m : M)
    (hn : ∀ p : CodePair, p.code = 102 → next m p = m) (gs : List ExtGroup)
    (hg : ExtGroup.AllPlain gs) (it : Entry ds) (rest : Stream) :
    Runs eof (stagedStep arms next) (m, it) (gs.flatMap ExtGroup.pairs)
      (m, { it with ext := it.ext ++ ExtGroup.kept gs }) rest := by
  induction gs generalizing it with
  | nil => simpa [ExtGroup.kept] using Runs.nil (m, it) rest
  | cons g gs ih =>
    have h1 := runs_group_staged (eof := eof) arms next m hn g (hg g List.mem_cons_self) it
      (toStream (gs.flatMap ExtGroup.pairs) ++ rest)
    have h2 := ih (fun x hx => hg x (List.mem_cons_of_mem _ hx))
      { it with ext := it.ext ++ ExtGroup.kept [g] }
    rw [List.flatMap_cons, ExtGroup.kept_cons, ← List.append_assoc]
    exact Runs.trans h1 h2

theorem runs_xdata_staged (arms : M → List (Arm ds)) (next : M → CodePair → M) (m : M)
    (hn : ∀ p : CodePair, p.code = 1001 → next m p = m) (xs : List XData) (v : Version)
    (hv : .r2000 ≤ v) (it : Entry ds) (rest : Stream) (hr : XData.Stops rest) :
    Runs eof (stagedStep arms next) (m, it) (xs.flatMap fun x => x.pairs v)
      (m, { it with xdata := it.xdata ++ xs }) rest := by
  induction xs generalizing it with
  | nil => simpa using Runs.nil (m, it) rest
  | cons x xs ih =>
    have hx : x.pairs v = .newStr 1001 x.name :: XDataItem.pairsList x.items := by
      unfold XData.pairs
      rw [if_pos hv]
    have hstop : XData.Stops (toStream (xs.flatMap fun x => x.pairs v) ++ rest) := by
      cases xs with
      | nil => simpa using hr
      | cons y ys =>
        refine .inr ⟨.newStr 1001 y.name, toStream (XDataItem.pairsList y.items) ++
          (toStream (ys.flatMap fun x => x.pairs v) ++ rest), ?_, .inl rfl, by simp [CodePair.newStr]⟩
        have hy : y.pairs v = .newStr 1001 y.name :: XDataItem.pairsList y.items := by
          unfold XData.pairs
          rw [if_pos hv]
        simp [hy]
    have h1 : Runs eof (stagedStep arms next) (m, it) (x.pairs v)
        (m, { it with xdata := it.xdata ++ [x] })
        (toStream (xs.flatMap fun x => x.pairs v) ++ rest) := by
      rw [hx]
      refine Runs.one (by simp [CodePair.newStr]) (by simp [CodePair.newStr]) ?_
      have := XData.read_written x _ hstop
      have h2 := hn (.newStr 1001 x.name) rfl
      simp only [CodePair.newStr] at h2
      simp [stagedStep, Entry.apply, CodePair.newStr, Rd.run_bind, CodePair.assertString, this, h2]
    have h2 := ih { it with xdata := it.xdata ++ [x] }
    rw [List.flatMap_cons, show it.xdata ++ x :: xs = it.xdata ++ [x] ++ xs by simp]
    exact Runs.trans h1 h2

end Dxf
