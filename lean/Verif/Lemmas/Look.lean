import Verif.Model.Look
import Verif.Lemmas.Splines
import Verif.Lemmas.Settings
import Verif.Lemmas.Count

/-! The common fields of entities, written and read (C84). -/

namespace Dxf

/-- The codes of the look. -/
def lookCodes : List Int := [8, 6, 62, 48, 60, 67]

def EName.ownCmds (k : EName) (n : Nat) : Bool :=
  (k.kind.cmds n).all fun g => (0 :: lookCodes).all fun c => !g.mentions c

theorem own_cmds (k : EName) (hk : k ≠ .mText) (n : Nat) : k.ownCmds n = true := by
  have key : ∀ k ∈ EName.all, k ≠ .mText → ∀ n ∈ List.range 7, k.ownCmds n = true := by decide +kernel
  have key : ∀ n ∈ List.range 7, k.ownCmds n = true := key k (by cases k <;> decide) hk
  cases k
  case insert =>
    rcases n with _ | n
    · exact key 0 (by decide)
    · exact key 1 (by decide)
  case dimension =>
    rcases n with _ | _ | _ | _ | _ | _ | n
    · exact key 0 (by decide)
    · exact key 1 (by decide)
    · exact key 2 (by decide)
    · exact key 3 (by decide)
    · exact key 4 (by decide)
    · exact key 5 (by decide)
    · exact key 6 (by decide)
  all_goals exact key 0 (by decide)

/-- The pairs of an entity itself with a code of the look. -/
theorem look_pairs {e : Entity} (hk : e.kind ≠ .mText) {v : Version} (hv : e.kind.supported v = true)
    (wh : Bool) (he : e.entry.ext = []) {c : Int} (hc : c ∈ lookCodes) :
    withCode c (itsOwn (e.pairs v wh)) = withCode c (emitAll
      ((commonHead e.kind.kind.spec wh ++ commonCmds e.kind.kind.spec wh).filter (GCmd.mentions c)) v
      e.entry.fields) := by
  have own := own_cmds e.kind hk e.num
  have hc1 : c < 1000 := by
    simp only [lookCodes, List.mem_cons, List.not_mem_nil, or_false] at hc
    omega
  have body : ∀ p ∈ emitAll ((commonHead e.kind.kind.spec wh ++ commonCmds e.kind.kind.spec wh) ++
      e.kind.kind.cmds e.num) v e.entry.fields, p.code ≠ 0 := by
    refine emitAll_ne ?_
    rw [List.all_append, Bool.and_eq_true]
    refine ⟨rfl, List.all_eq_true.mpr fun g hg => ?_⟩
    exact List.all_eq_true.mp (List.all_eq_true.mp own g hg) 0 List.mem_cons_self
  have split : e.pairs v wh = .newStr 0 e.kind.kind.typeString ::
      (emitAll ((commonHead e.kind.kind.spec wh ++ commonCmds e.kind.kind.spec wh) ++
        e.kind.kind.cmds e.num) v e.entry.fields ++
      (e.post v wh ++ e.entry.xdata.flatMap fun x => x.pairs v)) := by
    unfold Entity.pairs EName.pairs EName.front
    rw [if_pos hv, he, emitAll_append, emitAll_append, emitAll_append]
    simp only [List.flatMap_nil, ite_self, List.append_nil, List.append_assoc, List.cons_append]
  rw [split]
  unfold itsOwn
  rw [List.tail_cons, List.takeWhile_append_of_pos fun p hp => decide_eq_true (body p hp)]
  unfold withCode
  rw [List.filter_append]
  have h2 := withCode_none (c := c) (ps := (e.post v wh ++ e.entry.xdata.flatMap fun x => x.pairs v).takeWhile
    fun p => decide (p.code ≠ 0)) fun p hp => by have := post_ge e v wh e.entry.xdata p hp; omega
  unfold withCode at h2
  rw [h2, List.append_nil]
  change withCode c _ = withCode c _
  rw [withCode_emitAll, List.filter_append]
  have none : (e.kind.kind.cmds e.num).filter (GCmd.mentions c) = [] :=
    List.filter_eq_nil_iff.mpr fun g hg => by
      have := List.all_eq_true.mp (List.all_eq_true.mp own g hg) c (List.mem_cons_of_mem _ hc)
      simpa using this
  rw [none, List.append_nil]

theorem rustEq_one {x : F64} (h : F64.rustEq x ⟨0x3ff0000000000000#64⟩ = true) :
    x = ⟨0x3ff0000000000000#64⟩ := by
  unfold F64.rustEq at h
  have hu : (⟨0x3ff0000000000000#64⟩ : F64).units ≠ 0 := by decide +kernel
  simp only [hu, decide_false, Bool.and_false, Bool.false_and, Bool.or_false, Bool.and_eq_true,
    decide_eq_true_eq] at h
  exact h.2

/-- The action of an arm leaves the common fields alone. -/
def Act.specific {ds : List Decl} : Act ds → Bool
  | .on j _ => decide (18 ≤ j)
  | .custom ts _ => ts.all fun j => decide (18 ≤ j)

def specificArms {ds : List Decl} (arms : List (Arm ds)) : Bool :=
  arms.all fun a => a.act.specific && decide (a.code ∉ lookCodes)

theorem arms_shape (k : EName) (hk : k ≠ .mText) (m : Mode) : ∃ own : List (Arm k.decls),
    k.kind.arms m = own ++ commonArms k.kind.spec ∧ specificArms own = true := by
  obtain ⟨a, b, n⟩ := m
  cases k
  case mText => exact absurd rfl hk
  case «attribute» | attributeDefinition =>
    cases a <;> cases b <;> rcases n with _ | _ | _ | n <;>
      exact ⟨_, rfl, by first | decide +kernel | rfl⟩
  case dimension =>
    rcases n with _ | _ | _ | _ | _ | _ | n
    · exact ⟨Ent.dimensionBaseArms, rfl, by decide +kernel⟩
    · exact ⟨Ent.rotatedArms, rfl, by decide +kernel⟩
    · exact ⟨Ent.radialArms, rfl, by decide +kernel⟩
    · exact ⟨Ent.radialArms, rfl, by decide +kernel⟩
    · exact ⟨Ent.angularArms, rfl, by decide +kernel⟩
    · exact ⟨Ent.ordinateArms, rfl, by decide +kernel⟩
    · exact ⟨[], rfl, rfl⟩
  case seqend => exact ⟨[], rfl, rfl⟩
  all_goals exact ⟨_, rfl, by decide +kernel⟩

/-- Pairs applied one after the other, whatever the state of the reader. -/
inductive LookSteps (k : EName) : Rec k.decls → List CodePair → Rec k.decls → Prop
  | nil (r) : LookSteps k r [] r
  | cons (m : Mode) {r r1 r2 p ps} : applyPair (k.kind.arms m) r p = .ok r1 → LookSteps k r1 ps r2 →
      LookSteps k r (p :: ps) r2

theorem loop_steps {k : EName} {ps : List CodePair} (hc : ∀ p ∈ ps, plainCode p.code = true)
    {q : CodePair} (hq : q.code = 0) {s t : Stream} {fuel : Nat} {st st' : Mode × Entry k.decls}
    (h : itemLoop k.kind.eof k.step fuel st (toStream ps ++ some (.ok q) :: s) = (.ok st', t)) :
    LookSteps k st.2.fields ps st'.2.fields := by
  induction ps generalizing st fuel with
  | nil =>
    cases fuel with
    | zero => cases h
    | succ f =>
      rw [itemLoop, toStream_nil, List.nil_append, Rd.bind_ok (Rd.next?_cons (by omega) _)] at h
      change (if q.code = 0 then (Rd.putBack q >>= fun _ => pure st)
        else (k.step q st >>= fun st' => itemLoop k.kind.eof k.step f st')) s = _ at h
      rw [if_pos hq] at h
      cases h
      exact .nil _
  | cons p ps ih =>
    cases fuel with
    | zero => cases h
    | succ f =>
      have hp := hc p List.mem_cons_self
      simp only [plainCode, ne_eq, Bool.and_eq_true, decide_not,
        Bool.not_eq_true', decide_eq_false_iff_not] at hp
      rw [itemLoop, toStream_cons, List.cons_append, Rd.bind_ok (Rd.next?_cons hp.2 _)] at h
      change (if p.code = 0 then (Rd.putBack p >>= fun _ => pure st)
        else (k.step p st >>= fun st' => itemLoop k.kind.eof k.step f st')) _ = _ at h
      rw [if_neg hp.1.1.1] at h
      have hs : ∀ s, k.step p st s = ((applyPair (k.kind.arms st.1) st.2.fields p).map fun r =>
          (k.kind.next st.1 p, { st.2 with fields := r }), s) := by
        intro s
        unfold EName.step Entry.apply
        rw [if_neg hp.1.1.2, if_neg hp.1.2]
        cases applyPair (k.kind.arms st.1) st.2.fields p <;> rfl
      change Rd.bind _ _ _ = _ at h
      unfold Rd.bind at h
      rw [hs] at h
      cases h1 : applyPair (k.kind.arms st.1) st.2.fields p with
      | error e =>
        rw [h1] at h
        cases h
      | ok r =>
        rw [h1] at h
        exact .cons st.1 h1 (ih (fun x hx => hc x (List.mem_cons_of_mem _ hx)) h)

/-- A value among the common fields, read. -/
theorem steps_said {k : EName} {α : Type} {get : Rec k.decls → α} {c : Int} {w : CodePairValue} {a : α}
    (other : ∀ m r r' p, p.code ≠ c → applyPair (k.kind.arms m) r p = .ok r' → get r' = get r)
    (own : ∀ m r r' p, p.code = c → p.value = w → applyPair (k.kind.arms m) r p = .ok r' → get r' = a)
    {ps : List CodePair} {absent : Prop} {r r' : Rec k.decls} (hp : Said ps c w absent)
    (h0 : absent → get r = a) (h : LookSteps k r ps r') : get r' = a := by
  have others : ∀ {ps : List CodePair} {r r' : Rec k.decls}, withCode c ps = [] → LookSteps k r ps r' →
      get r' = get r := by
    intro ps r r' hn h
    induction h with
    | nil => rfl
    | @cons m r r1 r2 p ps h1 h2 ih =>
      have hpc : p.code ≠ c := fun e => by
        unfold withCode at hn
        rw [List.filter_cons, if_pos (decide_eq_true e)] at hn
        cases hn
      unfold withCode at hn
      rw [List.filter_cons, if_neg (by simpa using hpc)] at hn
      exact (ih hn).trans (other m _ _ _ hpc h1)
  rcases hp with hp | ⟨hn, ha⟩
  · clear h0
    induction h with
    | nil => cases hp
    | @cons m r r1 r2 p ps h1 h2 ih =>
      rw [List.filter_cons] at hp
      by_cases hpc : p.code = c
      · rw [if_pos (decide_eq_true hpc), List.map_cons, List.cons.injEq] at hp
        exact (others (List.map_eq_nil_iff.mp hp.2) h2).trans (own m _ _ _ hpc hp.1 h1)
      · rw [if_neg (by simpa using hpc)] at hp
        exact ih hp
  · exact (others hn h).trans (h0 ha)

theorem common_other {k : EName} (hk : k ≠ .mText) {i : Nat} (hi : i < 18) {c : Int}
    (hc : ((commonArms k.kind.spec).all fun a => decide (a.code = c) || a.act.spares (.num i)) = true)
    {m : Mode} {r r' : Rec k.decls} {p : CodePair} (hp : p.code ≠ c)
    (h : applyPair (k.kind.arms m) r p = .ok r') : r' i = r i := by
  obtain ⟨own, hs, ho⟩ := arms_shape k hk m
  unfold applyPair at h
  cases ha : findArm (k.kind.arms m) p.code with
  | none => rw [ha] at h; cases h; rfl
  | some a =>
    rw [ha] at h
    change a.act.apply r p = _ at h
    obtain ⟨hm, hcode⟩ := findArm_mem ha
    have hm' := hm
    rw [hs] at hm
    rcases List.mem_append.mp hm with hm | hm
    · have hl := List.all_eq_true.mp ho a hm
      rw [Bool.and_eq_true] at hl
      have hl := hl.1
      cases hact : a.act with
      | custom ts f =>
        rw [hact] at hl h
        refine k.frame m a hm' ts f hact r p r' h i fun hit => ?_
        have := of_decide_eq_true (List.all_eq_true.mp hl i hit)
        omega
      | on j f =>
        rw [hact] at hl h
        obtain ⟨x, -, rfl⟩ := on_apply h
        have := of_decide_eq_true hl
        exact Rec.set_ne r x (by omega)
    · have hl := List.all_eq_true.mp hc a hm
      rw [Bool.or_eq_true, decide_eq_true_eq] at hl
      have hl := hl.resolve_left (hcode ▸ hp)
      cases hact : a.act with
      | custom ts f => rw [hact] at hl; cases hl
      | on j f =>
        rw [hact] at hl h
        obtain ⟨x, -, rfl⟩ := on_apply h
        exact Rec.set_ne r x (Ne.symm (of_decide_eq_true hl))

theorem common_own {k : EName} (hk : k ≠ .mText) {c : Int} (hc : c ∈ lookCodes) {a : Arm k.decls}
    (ha : findArm (commonArms k.kind.spec) c = some a) {m : Mode} {r r' : Rec k.decls} {p : CodePair}
    (hp : p.code = c) (h : applyPair (k.kind.arms m) r p = .ok r') : a.act.apply r p = .ok r' := by
  obtain ⟨own, hs, ho⟩ := arms_shape k hk m
  have hf : findArm (k.kind.arms m) p.code = some a := by
    unfold findArm at ha ⊢
    rw [hs, hp, List.find?_append, ha]
    have : List.find? (fun a : Arm k.decls => decide (a.code = c)) own = none :=
      List.find?_eq_none.mpr fun b hb e => by
        have hl := List.all_eq_true.mp ho b hb
        rw [Bool.and_eq_true] at hl
        exact of_decide_eq_true hl.2 (of_decide_eq_true e ▸ hc)
    rw [this]
    rfl
  unfold applyPair at h
  rw [hf] at h
  exact h

theorem set_own {t : Ty} {c : RConv t} {p : CodePair} {o x : t.den} {z : t.den}
    (hz : c.read p = .ok z) (h : FRead.apply (.set c) o p = .ok x) : x = z := by
  simp only [FRead.apply, hz] at h
  cases h
  rfl

/-- One field of the look. -/
theorem look_field {k : EName} (hk : k ≠ .mText) {i : Nat} (hi : i < 18) {c : Int} (hl : c ∈ lookCodes)
    (hc : ((commonArms k.kind.spec).all fun a => decide (a.code = c) || a.act.spares (.num i)) = true)
    {f : RConv (tyAt k.decls i)}
    (ha : findArm (commonArms k.kind.spec) c = some ⟨c, .on i (.set f)⟩) {w : CodePairValue}
    {z : (tyAt k.decls i).den} (hw : ∀ p : CodePair, p.value = w → f.read p = .ok z)
    {ps : List CodePair} {absent : Prop} {r r' : Rec k.decls} (hp : Said ps c w absent)
    (h0 : absent → r i = z) (h : LookSteps k r ps r') : r' i = z :=
  steps_said (get := fun r => r i) (fun _ _ _ _ hp h => common_other hk hi hc hp h)
    (fun m r r' p hp hv h => by
      obtain ⟨x, hx, rfl⟩ := on_apply (common_own hk hl ha hp h)
      exact (Rec.set_self r i x).trans (set_own (hw p hv) hx)) hp h0 h

/-- The common fields that are read. -/
theorem look_steps {k : EName} (hk : k ≠ .mText) {l : Look} {ps : List CodePair} (hp : l.Described ps)
    {r : Rec k.decls} (h : LookSteps k (Rec.dflt k.decls) ps r) {n : Nat} {ext : List ExtGroup}
    {xd : List XData} : Look.of ⟨k, n, ⟨r.finish, ext, xd⟩⟩ = l := by
  obtain ⟨layer, lineType, color, scale, visible, paper⟩ := l
  have h1 : (r 3 : Str) = layer := look_field (i := 3) (c := 8) (f := .str) (z := layer) hk (by decide)
    (by decide) rfl rfl (fun p hv => by change p.assertString = _; rw [CodePair.assertString, hv]; rfl) hp.layer
    Eq.symm h
  have h2 : (r 4 : Str) = lineType := look_field (i := 4) (c := 6) (f := .str) (z := lineType) hk
    (by decide) (by decide) rfl rfl
    (fun p hv => by change p.assertString = _; rw [CodePair.assertString, hv]; rfl) hp.lineType Eq.symm h
  have h3 : (r 7 : I16) = color := look_field (i := 7) (c := 62) (f := .i16) (z := color) hk (by decide)
    (by decide) rfl rfl (fun p hv => by change p.assertI16 = _; rw [CodePair.assertI16, hv]; rfl) hp.color
    Eq.symm h
  have h4 : (r 9 : F64) = scale := look_field (i := 9) (c := 48) (f := .f64) (z := scale) hk (by decide)
    (by decide) rfl rfl (fun p hv => by change p.assertF64 = _; rw [CodePair.assertF64, hv]; rfl) hp.scale
    Eq.symm h
  have h5 : (r 10 : Bool) = visible := look_field (i := 10) (c := 60) (f := .notBool) (z := visible) hk
    (by decide) (by decide) rfl rfl
    (fun p hv => by
      change p.assertI16.map _ = _
      rw [CodePair.assertI16, hv]
      cases visible <;> rfl) hp.visible Eq.symm h
  have h6 : (r 2 : Bool) = paper := look_field (i := 2) (c := 67) (f := .asBool) (z := paper) hk
    (by decide) (by decide) rfl rfl
    (fun p hv => by
      change p.assertI16.map _ = _
      rw [CodePair.assertI16, hv]
      cases paper <;> rfl) hp.paper Eq.symm h
  subst h1 h2 h3 h4 h5 h6
  rfl

/-- What is read from an entity that is not a dimension. -/
theorem nextEntity_steps {k : EName} (hd : k ≠ .dimension) {op q : CodePair} {x : Str}
    (hop : op.code = 0) (hv : op.value = .str x) (hx : EName.ofType x = some k)
    (he : x ≠ str!"ENDSEC" ∧ x ≠ str!"ENDBLK") {ps : List CodePair}
    (hc : ∀ p ∈ ps, plainCode p.code = true) (hq : q.code = 0) {s t : Stream} {f : Flat}
    (h : nextEntity (some (.ok op) :: (toStream ps ++ some (.ok q) :: s)) = (.ok (some f), t)) :
    ∃ r ext xdata, LookSteps k (Rec.dflt k.decls) ps r ∧ f = ⟨k, 0, ⟨Rec.finish r, ext, xdata⟩⟩ := by
  have hsub : ∀ m, k.kind.sub m = some 0 := by
    cases k
    case dimension => exact absurd rfl hd
    all_goals exact fun _ => rfl
  rw [nextEntity_some, readEntity] at h
  have h := (Rd.bind_ok (Rd.next_cons (by omega) _)).symm.trans h
  rw [if_pos hop] at h
  have h := (Rd.bind_ok (m := Rd.lift op.assertString) (a := x) (s := toStream ps ++ some (.ok q) :: s)
    (s' := toStream ps ++ some (.ok q) :: s)
    (by unfold CodePair.assertString; rw [hv]; rfl)).symm.trans h
  rw [if_neg (by rintro (h | h); exacts [he.1 h, he.2 h]), hx] at h
  change Rd.bind _ _ _ = _ at h
  unfold Rd.bind Rd.withFuel at h
  beta_reduce at h
  cases hl : itemLoop k.kind.eof k.step ((toStream ps ++ some (.ok q) :: s).length + 1)
      (Mode.start, Entry.dflt k.decls) (toStream ps ++ some (.ok q) :: s) with
  | mk st t' =>
    rw [hl] at h
    cases st with
    | error e => cases h
    | ok st =>
      dsimp only at h
      rw [hsub] at h
      cases h
      exact ⟨_, _, _, loop_steps hc hq hl, rfl⟩
/-- The pair of one statement. -/
theorem withCode_one {ds : List Decl} {gs : List (GCmd ds)} {g : GCmd ds} {c : Int} {v : Version} {r : Rec ds}
    {p : CodePair} (hg : gs.filter (GCmd.mentions c) = [g]) (hp : g.cmd.emit r = [p]) (hc : p.code = c) :
    withCode c (emitAll (gs.filter (GCmd.mentions c)) v r) = if g.holds v r then [p] else [] := by
  rw [hg]
  change withCode c (g.emit v r ++ []) = _
  unfold GCmd.emit
  rw [hp, List.append_nil]
  split
  · unfold withCode
    rw [List.filter_cons, if_pos (decide_eq_true hc)]
    rfl
  · rfl

/-- One of the common values, as it is written. -/
theorem look_said {e : Entity} (hk : e.kind ≠ .mText) {v : Version} (hs : e.kind.supported v = true)
    (he : e.entry.ext = []) (wh : Bool) {c : Int} (hl : c ∈ lookCodes) {g : GCmd e.kind.decls}
    {p : CodePair}
    (hg : (commonHead e.kind.kind.spec wh ++ commonCmds e.kind.kind.spec wh).filter (GCmd.mentions c) = [g])
    (hp : g.cmd.emit e.entry.fields = [p]) (hc : p.code = c) {absent : Prop}
    (hn : g.holds v e.entry.fields = false → absent) :
    Said (itsOwn (e.pairs v wh)) c p.value absent := by
  have h := (look_pairs hk hs wh he hl).trans (withCode_one hg hp hc)
  unfold withCode at h
  unfold Said
  rw [h]
  cases hh : g.holds v e.entry.fields with
  | true => exact .inl rfl
  | false => exact .inr ⟨rfl, hn hh⟩

end Dxf
