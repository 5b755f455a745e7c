import Verif.Lemmas.ObjectChecks
import Verif.Lemmas.Entities

/-! Reading what was written for an object. -/

namespace Dxf

/-! ### Modes -/

section
variable {ds : List Decl} {M : Type} [DecidableEq M]

theorem annotate_join {next : M → CodePair → M} {vals : Int → Bool} {m m1 m2 : M}
    {a b : List (GCmd ds)} {as bs : List (M × GCmd ds)}
    (ha : annotate next vals m a = some (as, m1)) (hb : annotate next vals m1 b = some (bs, m2)) :
    annotate next vals m (a ++ b) = some (as ++ bs, m2) := by
  induction a generalizing m as with
  | nil =>
    simp only [annotate, Option.some.injEq, Prod.mk.injEq] at ha
    obtain ⟨rfl, rfl⟩ := ha
    exact hb
  | cons g gs ih =>
    rw [annotate] at ha
    rw [List.cons_append, annotate]
    cases hm : modeAfter next vals m g.cmd with
    | none => rw [hm] at ha; cases ha
    | some m' =>
      rw [hm] at ha
      simp only [Option.map_eq_some_iff, Prod.mk.injEq, Prod.exists] at ha
      obtain ⟨as', m'', h1, rfl, rfl⟩ := ha
      simp only
      rw [ih h1]
      rfl

end

/-- The pairs are left to `Entry.apply` in the modes in which they are read. -/
def QuietAlong {M : Type} (next : M → CodePair → M) (q : M → Int → Bool) :
    M → List CodePair → Prop
  | _, [] => True
  | m, p :: ps => q m p.code = true ∧ QuietAlong next q (next m p) ps

section
variable {ds : List Decl} {M : Type} {next : M → CodePair → M} {q : M → Int → Bool}

theorem QuietAlong.append {m : M} {a b : List CodePair} (ha : QuietAlong next q m a)
    (hb : QuietAlong next q (a.foldl next m) b) : QuietAlong next q m (a ++ b) := by
  induction a generalizing m with
  | nil => exact hb
  | cons p ps ih => exact ⟨ha.1, ih ha.2 hb⟩

theorem foldl_neutral {m : M} {ps : List CodePair} (h : ∀ p ∈ ps, next m p = m) :
    ps.foldl next m = m := by
  induction ps with
  | nil => rfl
  | cons p ps ih =>
    rw [List.foldl_cons, h p List.mem_cons_self]
    exact ih fun p hp => h p (List.mem_cons_of_mem _ hp)

theorem QuietAlong.neutral {m : M} {ps : List CodePair} (h : ∀ p ∈ ps, next m p = m)
    (hq : ∀ p ∈ ps, q m p.code = true) : QuietAlong next q m ps := by
  induction ps with
  | nil => exact trivial
  | cons p ps ih =>
    refine ⟨hq p List.mem_cons_self, ?_⟩
    rw [h p List.mem_cons_self]
    exact ih (fun p hp => h p (List.mem_cons_of_mem _ hp))
      fun p hp => hq p (List.mem_cons_of_mem _ hp)

variable [DecidableEq M]

theorem quiet_step {vals : Int → Bool}
    (hn : ∀ m (p q : CodePair), p.code = q.code → vals p.code = false → next m p = next m q)
    {m m' : M} {c : Cmd ds} (hm : modeAfter next vals m c = some m')
    (hq : c.codes.all (q m) = true) (r : Rec ds) :
    QuietAlong next q m (c.emit r) ∧ (c.emit r).foldl next m = m' := by
  rw [List.all_eq_true] at hq
  have hmany (ps : List CodePair) (cs : List Int) (hcs : ∀ p ∈ ps, p.code ∈ cs)
      (hm : (if cs.all fun c => !vals c && decide (next m (probe c) = m) then some m else none) =
        some m') (hq : ∀ x ∈ cs, q m x = true) :
      QuietAlong next q m ps ∧ ps.foldl next m = m' := by
    split at hm
    · rename_i hall
      simp only [Option.some.injEq] at hm
      subst hm
      have h : ∀ p ∈ ps, next m p = m := fun p hp => by
        have := List.all_eq_true.mp hall p.code (hcs p hp)
        simp only [Bool.and_eq_true, Bool.not_eq_true', decide_eq_true_eq] at this
        rw [hn m p (probe p.code) rfl this.1, this.2]
      exact ⟨QuietAlong.neutral h fun p hp => hq _ (hcs p hp), foldl_neutral h⟩
    · cases hm
  cases c with
  | const p =>
    simp only [modeAfter, Option.some.injEq] at hm
    exact ⟨⟨hq _ (by simp [Cmd.codes]), trivial⟩, hm⟩
  | computed code c f =>
    simp only [modeAfter] at hm
    split at hm
    · cases hm
    · rename_i hv
      simp only [Option.some.injEq] at hm
      refine ⟨⟨?_, trivial⟩, ?_⟩
      · rw [c.write_code]
        exact hq _ (by simp [Cmd.codes])
      · rw [← hm]
        exact hn m _ (probe code) (c.write_code code _) (by rw [c.write_code]; simpa using hv)
  | field i w =>
    simp only [Cmd.emit, Cmd.codes] at hq ⊢
    rw [modeAfter] at hm
    revert hq hm
    generalize r i = x
    revert w x
    generalize tyAt ds i = t
    intro w x hm hq
    cases w with
    | one code c =>
      simp only [FWrite.modeAfter] at hm
      split at hm
      · cases hm
      · rename_i hv
        simp only [Option.some.injEq] at hm
        refine ⟨⟨?_, trivial⟩, ?_⟩
        · rw [c.write_code]
          exact hq _ (by simp [FWrite.codes])
        · rw [← hm]
          exact hn m _ (probe code) (c.write_code code _) (by rw [c.write_code]; simpa using hv)
    | _ => exact hmany _ _ (fun p hp => FWrite.mem_emit _ _ p hp) hm hq

theorem quiet_all {vals : Int → Bool}
    (hn : ∀ m (p q : CodePair), p.code = q.code → vals p.code = false → next m p = next m q)
    (v : Version) (r : Rec ds) (cmds : List (GCmd ds))
    (hgate : ∀ g ∈ cmds, versionGate g.min g.max v = true)
    {m m' : M} {as : List (M × GCmd ds)} (ha : annotate next vals m cmds = some (as, m'))
    (hcond : ∀ x ∈ as, (∀ r, x.2.cond r = true) ∨ modeAfter next vals x.1 x.2.cmd = some x.1)
    (hq : ∀ x ∈ as, x.2.cmd.codes.all (q x.1) = true) :
    QuietAlong next q m (emitAll cmds v r) ∧ (emitAll cmds v r).foldl next m = m' := by
  induction cmds generalizing m as with
  | nil =>
    simp only [annotate, Option.some.injEq, Prod.mk.injEq] at ha
    exact ⟨trivial, ha.2⟩
  | cons g gs ih =>
    rw [annotate] at ha
    cases hm : modeAfter next vals m g.cmd with
    | none => rw [hm] at ha; cases ha
    | some m1 =>
      rw [hm] at ha
      simp only [Option.map_eq_some_iff, Prod.mk.injEq, Prod.exists] at ha
      obtain ⟨as1, m2, ha1, rfl, rfl⟩ := ha
      have h1 : QuietAlong next q m (g.emit v r) ∧ (g.emit v r).foldl next m = m1 := by
        unfold GCmd.emit
        by_cases hh : g.holds v r = true
        · rw [if_pos hh]
          exact quiet_step hn hm (hq (m, g) List.mem_cons_self) r
        · rw [if_neg hh]
          have : m1 = m := by
            rcases hcond (m, g) List.mem_cons_self with hc | hc
            · exact absurd (by rw [GCmd.holds, hgate g List.mem_cons_self, hc]; rfl) hh
            · simp only at hc
              rw [hc] at hm
              exact (Option.some.inj hm).symm
          subst this
          exact ⟨trivial, rfl⟩
      have h2 := ih (fun x hx => hgate x (List.mem_cons_of_mem _ hx))
        ha1 (fun x hx => hcond x (List.mem_cons_of_mem _ hx))
        fun x hx => hq x (List.mem_cons_of_mem _ hx)
      simp only [emitAll, List.flatMap_cons] at h2 ⊢
      refine ⟨h1.1.append ?_, ?_⟩
      · rw [h1.2]
        exact h2.1
      · rw [List.foldl_append, h1.2]
        exact h2.2

end

namespace OName

/-- The codes that change the mode. -/
def special : OName → List Int
  | .layout => [100]
  | .material => [3, 42, 72, 73, 74, 75, 90, 270, 271, 272, 273, 465]
  | .mLineStyle => [71]
  | .sortentsTable => [5, 100, 330, 331]
  | .spatialFilter => [40]
  | .sunStudy => [73, 290, 90]
  | .tableStyle => [280]
  | _ => []

theorem next_special (k : OName) (hk : k ≠ .xRecordObject) (m : OMode) (p : CodePair)
    (h : p.code ∉ k.special) : k.kind.next m p = m := by
  cases k
  case layout | material | mLineStyle | sortentsTable | spatialFilter | sunStudy | tableStyle =>
    simp only [special, List.mem_cons, List.not_mem_nil, or_false, not_or] at h
    simp [kind, Obj.layoutNext, Obj.materialNext, Obj.mLineStyleNext, Obj.sortentsNext,
      Obj.spatialNext, Obj.sunStudyNext, Obj.tableStyleNext, h]
  case xRecordObject => exact absurd rfl hk
  all_goals rfl

theorem vals_special (k : OName) (c : Int) (h : k.vals c = true) : c ∈ k.special := by
  cases k
  case layout =>
    simp only [vals, beq_iff_eq] at h
    simp [special, h]
  all_goals cases h

theorem next_code (k : OName) (m : OMode) (p q : CodePair) (h : p.code = q.code)
    (hv : k.vals p.code = false) : k.kind.next m p = k.kind.next m q := by
  cases k
  case layout =>
    simp only [vals, beq_eq_false_iff_ne, ne_eq] at hv
    have hq : q.code ≠ 100 := h ▸ hv
    simp only [kind, Obj.layoutNext, if_neg hv, if_neg hq]
  case material => simp only [kind, Obj.materialNext, h]
  case mLineStyle => simp only [kind, Obj.mLineStyleNext, h]
  case sortentsTable => simp only [kind, Obj.sortentsNext, h]
  case spatialFilter => simp only [kind, Obj.spatialNext, h]
  case sunStudy => simp only [kind, Obj.sunStudyNext, h]
  case tableStyle => simp only [kind, Obj.tableStyleNext, h]
  case xRecordObject => simp only [kind, Obj.xRecordNext, h]
  all_goals rfl

/-- A statement that is always emitted, or that does not change the mode. -/
def Steady (k : OName) (g : GCmd k.decls) : Prop :=
  (∀ r, g.cond r = true) ∨ (g.cmd.codes.all fun x => !k.special.contains x) = true ∨
    (k = .sortentsTable ∧ g.cmd = .field 1 (.one 330 .handle))

theorem Steady.cond {k : OName} (hk : k ≠ .xRecordObject) {g : GCmd k.decls} (h : k.Steady g)
    (m : OMode) (hm : g.cmd.codes.all (k.calm m) = true) :
    (∀ r, g.cond r = true) ∨ modeAfter k.kind.next k.vals m g.cmd = some m := by
  rcases h with h | h | ⟨rfl, h⟩
  · exact .inl h
  · exact .inr (modeAfter_neutral _ _ k.special (fun m p hp => k.next_special hk m p hp)
      k.vals_special m _ h)
  · right
    rw [h] at hm ⊢
    have hm : m.a = true := by simpa [Cmd.codes, FWrite.codes, calm] using hm
    simp only [modeAfter, FWrite.modeAfter, vals, Bool.false_eq_true, if_false, kind,
      Obj.sortentsNext, probe]
    obtain ⟨a, s⟩ := m
    simp only at hm
    subst hm
    rfl

theorem steady (k : OName) : ∀ g ∈ k.statements, k.Steady g := by
  intro g hg
  by_cases hs : k.special = []
  · exact .inr (.inl (by simp [hs]))
  · cases k <;> first | exact absurd rfl hs | skip
    all_goals
      revert g
      simp only [statements, part1, part2, part3, part4, objectHead, objectCmds, kind,
        Obj.layoutCmds, Obj.materialCmds, Obj.mLineStyleCmds, Obj.sortentsTableCmds,
        Obj.spatialFilterCmds, Obj.spatialFilterCmds2, Obj.sunStudyCmds, Obj.sunStudyCmds2,
        Obj.sunStudyCmds3, Obj.tableStyleCmds, List.cons_append, List.nil_append, List.append_nil]
      repeat' first
        | exact fun _ h => absurd h List.not_mem_nil
        | (refine List.forall_mem_cons.mpr ⟨?_, ?_⟩)
        | exact .inl fun _ => rfl
        | exact .inr (.inl rfl)
        | exact .inr (.inr ⟨rfl, rfl⟩)

/-! ### Arms -/

theorem frame (k : OName) (m : OMode) : CustomFrame (k.kind.arms m) := by
  cases k
  case layout =>
    simp only [kind, Obj.layoutArms]
    cases m.a <;> exact customFrame_of_on _ (by decide +kernel)
  case mLineStyle | sortentsTable | tableStyle | material =>
    apply EName.frame_of
    simp only [kind, Obj.mLineStyleArms, Obj.sortentsTableArms, Obj.tableStyleArms,
      Obj.materialArms, objectArms, List.cons_append, List.nil_append]
    repeat' first
      | exact fun _ h => absurd h List.not_mem_nil
      | (refine List.forall_mem_cons.mpr ⟨?_, ?_⟩)
      | exact trivial
      | (unfold EName.Framed; dsimp only; split <;> exact trivial)
      | (unfold EName.Framed; dsimp only; cases m.a <;> exact trivial)
      | (unfold EName.Framed; dsimp only; cases m.seen.contains _ <;> exact trivial)
      | (unfold EName.Framed; dsimp only; generalize List.count _ m.seen = n;
         rcases n with _ | _ | n <;> exact trivial)
  all_goals
    simp only [kind]
    exact customFrame_of_on _ (by decide +kernel)

theorem ofType_typeString (k : OName) : ofType k.kind.typeString = some k := by
  cases k <;> decide +kernel

theorem typeString_ne (k : OName) :
    k.kind.typeString ≠ str!"ENDSEC" ∧ k.kind.typeString ≠ str!"ENDBLK" := by
  cases k <;> decide +kernel

/-! ### Pairs of plain fields -/

/-- Handles are not yet taken for values of a table. -/
def Unread (k : OName) (w : OWork) : Prop :=
  k = .dataTable → w.gotRows = false ∧ w.gotCols = false

theorem unread_start (k : OName) : k.Unread {} := fun _ => ⟨rfl, rfl⟩

theorem odd_quiet {k : OName} {m : OMode} {p : CodePair} {w : OWork}
    (hq : k.quiet m p.code = true) (hw : k.Unread w) : k.odd m p w = none := by
  cases k
  case dictionary | dictionaryWithDefault =>
    simp only [quiet, Bool.not_eq_true', List.contains_eq_mem, List.mem_cons, List.not_mem_nil,
      or_false, decide_eq_false_iff_not, not_or] at hq
    simp [odd, OWork.dictionary, hq]
  case dataTable =>
    obtain ⟨h1, h2⟩ := hw rfl
    simp only [quiet, Bool.not_eq_true', List.contains_eq_mem, List.mem_cons, List.not_mem_nil,
      or_false, decide_eq_false_iff_not, not_or] at hq
    simp only [odd]
    unfold OWork.dataTable
    simp only
    split <;> first | (exfalso; rename_i h; simp [h] at hq; done) | skip
    simp [h1, h2]
  case sectionSettings =>
    simp only [quiet, bne_iff_ne, ne_eq] at hq
    simp [odd, OWork.sections, hq]
  case spatialFilter =>
    simp only [quiet, Bool.and_eq_true, Bool.not_eq_true', List.contains_eq_mem, List.mem_cons,
      List.not_mem_nil, or_false, decide_eq_false_iff_not, not_or, Bool.or_eq_true,
      bne_iff_ne, ne_eq] at hq
    obtain ⟨⟨h1, h2, h3⟩, h4⟩ := hq
    simp only [odd, OWork.spatial, h1, h2, h3, if_false]
    rw [if_neg]
    rintro ⟨a, b⟩
    rcases h4 with h4 | h4
    · exact h4 a
    · rw [b] at h4; cases h4
  case sunStudy =>
    simp only [quiet, Bool.and_eq_true, Bool.not_eq_true', List.contains_eq_mem,
      decide_eq_false_iff_not, Bool.or_eq_true, bne_iff_ne, ne_eq] at hq
    obtain ⟨h1, h2⟩ := hq
    simp only [odd, OWork.sunStudy]
    rw [if_neg, if_neg]
    · rintro ⟨a, b⟩
      rcases h2 with h2 | h2
      · exact h2 a
      · rw [b] at h2; cases h2
    · rintro ⟨a, b⟩
      rcases h1 with h1 | h1
      · exact h1 a
      · exact h1 b
  case tableStyle =>
    simp only [quiet, bne_iff_ne, ne_eq] at hq
    simp [odd, OWork.cells, hq]
  case xRecordObject =>
    simp only [quiet, Bool.and_eq_true, Bool.not_eq_true', Bool.or_eq_true, beq_iff_eq] at hq
    simp only [odd, OWork.xRecord]
    rw [if_neg]
    rintro (h | ⟨h1, h2, h3⟩)
    · rw [hq.1] at h; cases h
    · rcases hq.2 with (h | h) | h
      · exact h1 h
      · exact h2 h
      · rw [h3] at h; cases h
  all_goals rfl

theorem step_quiet {k : OName} {m : OMode} {p : CodePair} {w : OWork} (h : k.odd m p w = none)
    (e : Entry k.decls) : k.step p (m, e, w) = (do
      let e ← Entry.apply (k.kind.arms m) p e
      return (k.kind.next m p, e, w)) := by
  rw [step]
  simp only [h]

theorem runs_quiet (k : OName) (ps : List CodePair) (hc : ∀ p ∈ ps, plainCode p.code = true)
    (m : OMode) (it : Entry k.decls) {m' : OMode} {r : Rec k.decls}
    (h : foldStaged k.kind.arms k.kind.next (m, it.fields) ps = .ok (m', r))
    (hq : QuietAlong k.kind.next k.quiet m ps) {w : OWork} (hw : k.Unread w) (rest : Stream) :
    Runs k.kind.eof k.step (m, it, w) ps (m', { it with fields := r }, w) rest := by
  induction ps generalizing m it with
  | nil =>
    simp only [foldStaged, Except.ok.injEq, Prod.mk.injEq] at h
    obtain ⟨rfl, rfl⟩ := h
    exact Runs.nil _ _
  | cons p ps ih =>
    rw [foldStaged] at h
    simp only at h
    cases h1 : applyPair (k.kind.arms m) it.fields p with
    | error e => rw [h1] at h; cases h
    | ok r1 =>
      rw [h1] at h
      simp only at h
      have hp := hc p List.mem_cons_self
      simp only [plainCode, ne_eq, Bool.and_eq_true, decide_eq_true_eq, decide_not,
        Bool.not_eq_true', decide_eq_false_iff_not] at hp
      have := ih (fun q hq => hc q (List.mem_cons_of_mem _ hq)) (k.kind.next m p)
        { it with fields := r1 } h hq.2
      refine Runs.trans (a := [p]) (b := ps) (Runs.one hp.1.1.1 hp.2 ?_) this
      rw [step_quiet (odd_quiet hq.1 hw)]
      simp [Entry.apply, hp, Rd.run_bind, h1]

theorem quiet_group {k : OName} (hk : k ≠ .xRecordObject) (m : OMode) :
    k.quiet m 102 = true ∧ k.quiet m 1001 = true := by
  cases k <;> first | exact absurd rfl hk | (simp [quiet]; done) | exact ⟨rfl, rfl⟩

theorem runs_group (k : OName) (m : OMode) (hq : k.quiet m 102 = true)
    (hn : ∀ s, k.kind.next m (.newStr 102 s) = m) {w : OWork}
    (hw : k.Unread w) (g : ExtGroup) (hg : ExtItem.PlainList g.items) (it : Entry k.decls)
    (rest : Stream) :
    Runs k.kind.eof k.step (m, it, w) g.pairs
      (m, { it with ext := it.ext ++ ExtGroup.kept [g] }, w) rest := by
  unfold ExtGroup.pairs
  by_cases hne : g.items = []
  · simp only [hne, List.isEmpty_nil, if_true, ExtGroup.kept]
    simpa [hne] using Runs.nil (m, it, w) rest
  · have hne' : g.items.isEmpty = false := by simpa using hne
    rw [if_neg (by simp [hne'])]
    refine Runs.one (by simp [CodePair.newStr]) (by simp [CodePair.newStr]) ?_
    have := ExtGroup.read_written g hne hg 0 rest
    rw [step_quiet (odd_quiet (p := .newStr 102 ('{' :: g.name)) hq hw)]
    rw [hn]
    simp only [CodePair.newStr] at this
    simp [Entry.apply, CodePair.newStr, Rd.run_bind, CodePair.assertString, this,
      ExtGroup.kept, hne']

theorem runs_groups (k : OName) (m : OMode) (hq : k.quiet m 102 = true)
    (hn : ∀ s, k.kind.next m (.newStr 102 s) = m) {w : OWork}
    (hw : k.Unread w) (gs : List ExtGroup)
    (hg : ExtGroup.AllPlain gs) (it : Entry k.decls) (rest : Stream) :
    Runs k.kind.eof k.step (m, it, w) (gs.flatMap ExtGroup.pairs)
      (m, { it with ext := it.ext ++ ExtGroup.kept gs }, w) rest := by
  induction gs generalizing it with
  | nil => simpa [ExtGroup.kept] using Runs.nil (m, it, w) rest
  | cons g gs ih =>
    have h1 := runs_group k m hq hn hw g (hg g List.mem_cons_self) it
      (toStream (gs.flatMap ExtGroup.pairs) ++ rest)
    have h2 := ih (fun x hx => hg x (List.mem_cons_of_mem _ hx))
      { it with ext := it.ext ++ ExtGroup.kept [g] }
    rw [List.flatMap_cons, ExtGroup.kept_cons, ← List.append_assoc]
    exact Runs.trans h1 h2

theorem next_group {k : OName} (hk : k ≠ .xRecordObject) (m : OMode) (s : Str) :
    k.kind.next m (.newStr 102 s) = m :=
  k.next_special hk m (.newStr 102 s)
    (by cases k <;> first | exact absurd rfl hk | (simp [special, CodePair.newStr]; done))

theorem odd_xdata {k : OName} (hk : k ≠ .xRecordObject) (m : OMode) (s : Str) (w : OWork) :
    k.odd m (.newStr 1001 s) w = none := by
  by_cases hd : k = .dataTable
  · subst hd
    simp [odd, OWork.dataTable, CodePair.newStr]
  · exact odd_quiet (quiet_group hk m).2 fun h => absurd h hd

theorem runs_xdata (k : OName) (hk : k ≠ .xRecordObject) (m : OMode) (w : OWork)
    (xs : List XData) (v : Version) (hv : .r2000 ≤ v) (it : Entry k.decls) (rest : Stream)
    (hr : XData.Stops rest) :
    Runs k.kind.eof k.step (m, it, w) (xs.flatMap fun x => x.pairs v)
      (m, { it with xdata := it.xdata ++ xs }, w) rest := by
  induction xs generalizing it with
  | nil => simpa using Runs.nil (m, it, w) rest
  | cons x xs ih =>
    have hx : x.pairs v = .newStr 1001 x.name :: XDataItem.pairsList x.items := by
      unfold XData.pairs
      rw [if_pos hv]
    have hstop : XData.Stops (toStream (xs.flatMap fun x => x.pairs v) ++ rest) := by
      cases xs with
      | nil => simpa using hr
      | cons y ys =>
        refine .inr ⟨.newStr 1001 y.name, toStream (XDataItem.pairsList y.items) ++
          (toStream (ys.flatMap fun x => x.pairs v) ++ rest), ?_, .inl rfl, by simp [CodePair.newStr]⟩
        have hy : y.pairs v = .newStr 1001 y.name :: XDataItem.pairsList y.items := by
          unfold XData.pairs
          rw [if_pos hv]
        simp [hy]
    have h1 : Runs k.kind.eof k.step (m, it, w) (x.pairs v)
        (m, { it with xdata := it.xdata ++ [x] }, w)
        (toStream (xs.flatMap fun x => x.pairs v) ++ rest) := by
      rw [hx]
      refine Runs.one (by simp [CodePair.newStr]) (by simp [CodePair.newStr]) ?_
      have := XData.read_written x _ hstop
      rw [step_quiet (odd_xdata hk m _ w)]
      have h2 := k.next_special hk m (.newStr 1001 x.name)
        (by cases k <;> first | exact absurd rfl hk | (simp [special, CodePair.newStr]; done))
      rw [h2]
      simp [Entry.apply, CodePair.newStr, Rd.run_bind, CodePair.assertString, this]
    have h2 := ih { it with xdata := it.xdata ++ [x] }
    rw [List.flatMap_cons, show it.xdata ++ x :: xs = it.xdata ++ [x] ++ xs by simp]
    exact Runs.trans h1 h2

/-! ### The fields of an object -/

theorem dated_ok (k : OName) (m : OMode) (c : Cmd k.decls)
    (h : k.dated (k.kind.arms m) c = true) (r : Rec k.decls) (ht : k.Timely r) (r0 : Rec k.decls) :
    ∃ r1, foldPairs (k.kind.arms m) r0 (c.emit r) = .ok r1 := by
  have key (i : Nat) (w : FWrite (tyAt k.decls i)) (hc : c = .field i w)
      (hu : w.undoneBy (armOn (k.kind.arms m) i) = true) (hr : w.Readable (r i)) :
      ∃ r1, foldPairs (k.kind.arms m) r0 (c.emit r) = .ok r1 := by
    subst hc
    exact foldPairs_ok _ _ (w.undoneBy_accepts _ i hu _ hr) r0
  cases k
  case layerIndex | spatialIndex =>
    cases c with
    | field i w =>
      simp only [dated, Bool.and_eq_true, beq_iff_eq] at h
      obtain ⟨rfl, h⟩ := h
      exact key 2 w rfl h (FWrite.readable_of w _ (fun e => ht) (by intro e; cases e)
        (by intro e; cases e))
    | const => cases h
    | computed => cases h
  all_goals cases h

theorem fine_spec {k : OName} {as : List (OMode × GCmd k.decls)} {sk : List Nat}
    (h : k.fine as sk = true) : ∀ x ∈ as,
      (x.2.cmd.safeL (k.kind.arms x.1) = true ∨ k.dated (k.kind.arms x.1) x.2.cmd = true) ∧
      x.2.cmd.clean (k.kind.arms x.1) sk = true ∧
      x.2.cmd.codes.all plainCode = true ∧ x.2.cmd.codes.all (k.quiet x.1) = true ∧
      x.2.cmd.codes.all (k.calm x.1) = true := by
  intro x hx
  have := List.all_eq_true.mp h x hx
  simp only [Bool.and_eq_true, Bool.or_eq_true, List.all_eq_true] at this ⊢
  exact ⟨this.1.1, this.1.2, fun c hc => (this.2 c hc).1.1, fun c hc => (this.2 c hc).1.2,
    fun c hc => (this.2 c hc).2⟩

theorem check_spec {k : OName} {v : Version} {sk : List Nat} (h : k.check v sk = true) :
    ∃ as1 m1 as2 m2 as3 m3 as4 m4,
      annotate k.kind.next k.vals OMode.start (gated v k.part1) = some (as1, m1) ∧
      annotate k.kind.next k.vals m1 (gated v k.part2) = some (as2, m2) ∧
      annotate k.kind.next k.vals m2 (gated v k.part3) = some (as3, m3) ∧
      annotate k.kind.next k.vals m3 (gated v k.part4) = some (as4, m4) ∧
      k.fine (as1 ++ (as2 ++ (as3 ++ as4))) sk = true ∧
      k.mode3 m3 = true ∧ k.mode4 m4 = true ∧
      ∀ i, i < k.decls.length → i ∉ sk → growOKa (gated v k.statements) i = true := by
  unfold check at h
  split at h
  · cases h
  · rename_i as1 m1 h1
    rw [Bool.and_eq_true] at h
    obtain ⟨f1, h⟩ := h
    split at h
    · cases h
    · rename_i as2 m2 h2
      rw [Bool.and_eq_true] at h
      obtain ⟨f2, h⟩ := h
      split at h
      · cases h
      · rename_i as3 m3 h3
        rw [Bool.and_eq_true, Bool.and_eq_true] at h
        obtain ⟨⟨f3, hm3⟩, h⟩ := h
        split at h
        · cases h
        · rename_i as4 m4 h4
          rw [Bool.and_eq_true, Bool.and_eq_true] at h
          obtain ⟨⟨f4, hm4⟩, h⟩ := h
          refine ⟨as1, m1, as2, m2, as3, m3, as4, m4, h1, h2, h3, h4, ?_, hm3, hm4, ?_⟩
          · unfold fine at *
            rw [List.all_append, List.all_append, List.all_append, f1, f2, f3, f4]
            rfl
          · intro i hi hs
            simp only [List.all_eq_true, List.mem_range, Bool.or_eq_true, List.contains_eq_mem,
              decide_eq_true_eq] at h
            exact (h i hi).resolve_left hs

/-- No field of an object is a list of coordinates. -/
theorem no_pts : ∀ k ∈ OName.all, (k.decls.all fun d =>
    match d.1 with | .pts _ => false | _ => true) = true := by decide +kernel

theorem finish_id (k : OName) (i : Nat) (hi : i < k.decls.length) (x : (tyAt k.decls i).den) :
    (tyAt k.decls i).finish x = x := by
  have h := List.all_eq_true.mp (no_pts k (mem_all k)) (k.decls[i]) (List.getElem_mem hi)
  have ht : tyAt k.decls i = (k.decls[i]).1 := by
    rw [tyAt, declAt, List.getElem?_eq_getElem hi]
  revert x
  rw [ht]
  revert h
  generalize (k.decls[i]).1 = t
  intro h x
  cases t <;> first | rfl | cases h

/-- What the checks say about one part of the statements. -/
theorem read_part {k : OName} (hk : k ≠ .xRecordObject) {v : Version} {a : Rec k.decls}
    (ht : k.Timely a) {sk : List Nat} {cmds : List (GCmd k.decls)}
    (hst : ∀ g ∈ cmds, k.Steady g) {m m' : OMode} {as : List (OMode × GCmd k.decls)}
    (ha : annotate k.kind.next k.vals m (gated v cmds) = some (as, m'))
    (hf : k.fine as sk = true) (r0 : Rec k.decls) :
    ∃ r, foldStaged k.kind.arms k.kind.next (m, r0) (emitAll cmds v a) = .ok (m', r) ∧
      (∀ i, i ∉ sk → i < k.decls.length → Representable (gated v cmds) v a i →
        r i = afterAll i (gated v cmds) v a (r0 i)) ∧
      (∀ it : Entry k.decls, it.fields = r0 → ∀ w, k.Unread w → ∀ rest,
        Runs k.kind.eof k.step (m, it, w) (emitAll cmds v a) (m', { it with fields := r }, w)
          rest) := by
  have hs := fine_spec hf
  have hcond : ∀ x ∈ as, (∀ r, x.2.cond r = true) ∨
      modeAfter k.kind.next k.vals x.1 x.2.cmd = some x.1 := fun x hx =>
    (hst x.2 (gated_mem (annotate_mem ha ▸ List.mem_map_of_mem hx))).cond hk x.1 (hs x hx).2.2.2.2
  obtain ⟨r, hfold, hval⟩ := staged_fold_modes k.kind.arms k.kind.next k.vals k.next_code v a
    (gated v cmds) (gated_gate v _) m m' as ha hcond
    (fun x hx r0 => (hs x hx).1.elim (fun h => Cmd.safeL_ok _ _ h _ _)
      (fun h => k.dated_ok _ _ h _ ht _)) r0
  have hq := (quiet_all k.next_code v a (gated v cmds) (gated_gate v _) ha hcond
    fun x hx => (hs x hx).2.2.2.1).1
  have hplain : ∀ p ∈ emitAll cmds v a, plainCode p.code = true := by
    intro p hp
    rw [← emitAll_gated] at hp
    obtain ⟨g, hg, _, hp⟩ := mem_emitAll hp
    rw [← annotate_mem ha] at hg
    obtain ⟨x, hx, rfl⟩ := List.mem_map.mp hg
    exact List.all_eq_true.mp (hs x hx).2.2.1 _ (x.2.cmd.mem_codes _ p hp)
  rw [emitAll_gated] at hfold hq
  refine ⟨r, hfold, fun i hi hl hrep => ?_, fun it hit w hw rest => ?_⟩
  · exact hval i (clean_fieldOKa (List.all_eq_true.mpr fun x hx => (hs x hx).2.1) hi hl)
      (fun x _ => k.frame x.1) hrep
  · subst hit
    exact runs_quiet k _ hplain m it hfold hq hw rest

/-- Reading what is written for the fields of an object, with anything in between that leaves
modes and fields alone. -/
theorem read_parts {k : OName} (hk : k ≠ .xRecordObject) {v : Version} {sk : List Nat}
    (hc : k.check v sk = true) (a : Entry k.decls) (ht : k.Timely a.fields)
    (hext : ExtGroup.AllPlain a.ext) :
    ∃ m2 m3 m4, ∃ r : Rec k.decls, k.mode3 m3 = true ∧ k.mode4 m4 = true ∧
      (∀ i, i ∉ sk → Representable k.statements v a.fields i →
        r i = if Written k.statements v a.fields i then a.fields i else Rec.dflt k.decls i) ∧
      foldStaged k.kind.arms k.kind.next (OMode.start, Rec.dflt k.decls)
        (emitAll k.statements v a.fields) = .ok (m4, r) ∧
      ∀ (mid mid2 : List CodePair) (w1 w2 : OWork), k.Unread w1 → k.Unread w2 →
        (∀ e rest, Runs k.kind.eof k.step (m2, e, {}) mid (m2, e, w1) rest) →
        (∀ e rest, Runs k.kind.eof k.step (m3, e, w1) mid2 (m3, e, w2) rest) → ∀ rest,
        Runs k.kind.eof k.step (OMode.start, Entry.dflt k.decls, {})
          (emitAll k.part1 v a.fields ++
            ((if .r14 ≤ v then a.ext.flatMap ExtGroup.pairs else []) ++
              (emitAll k.part2 v a.fields ++ (mid ++ (emitAll k.part3 v a.fields ++
                (mid2 ++ emitAll k.part4 v a.fields))))))
          (m4, ⟨r, if .r14 ≤ v then ExtGroup.kept a.ext else [], []⟩, w2) rest := by
  obtain ⟨as1, m1, as2, m2, as3, m3, as4, m4, h1, h2, h3, h4, hf, hm3, hm4, hgrow⟩ := check_spec hc
  have hst := k.steady
  have hff : k.fine as1 sk = true ∧ k.fine as2 sk = true ∧ k.fine as3 sk = true ∧
      k.fine as4 sk = true := by
    unfold fine at hf ⊢
    rw [List.all_append, List.all_append, List.all_append] at hf
    simpa only [Bool.and_eq_true, and_assoc] using hf
  obtain ⟨f1, f2, f3, f4⟩ := hff
  have hmem : ∀ g, g ∈ k.statements ↔ g ∈ k.part1 ∨ g ∈ k.part2 ∨ g ∈ k.part3 ∨ g ∈ k.part4 := by
    intro g
    simp only [statements, List.mem_append]
  obtain ⟨r1, e1, -, s1⟩ := read_part hk ht (fun g hg => hst g ((hmem g).mpr (.inl hg))) h1 f1
    (Rec.dflt k.decls)
  obtain ⟨r2, e2, -, s2⟩ := read_part hk ht (fun g hg => hst g ((hmem g).mpr (.inr (.inl hg)))) h2
    f2 r1
  obtain ⟨r3, e3, -, s3⟩ := read_part hk ht
    (fun g hg => hst g ((hmem g).mpr (.inr (.inr (.inl hg))))) h3 f3 r2
  obtain ⟨r4, e4, -, s4⟩ := read_part hk ht
    (fun g hg => hst g ((hmem g).mpr (.inr (.inr (.inr hg))))) h4 f4 r3
  have ha : annotate k.kind.next k.vals OMode.start (gated v k.statements) =
      some (as1 ++ (as2 ++ (as3 ++ as4)), m4) := by
    simp only [statements, gated_append]
    exact annotate_join h1 (annotate_join h2 (annotate_join h3 h4))
  obtain ⟨r, e, hval, -⟩ := read_part hk ht hst ha hf (Rec.dflt k.decls)
  have hr : r = r4 := by
    simp only [statements, emitAll_append, foldStaged_append, e1, e2, e3, e4] at e
    simp only [Except.ok.injEq, Prod.mk.injEq, true_and] at e
    exact e.symm
  subst hr
  refine ⟨m2, m3, m4, r, hm3, hm4, fun i hi hrep => ?_, e, ?_⟩
  · by_cases hl : i < k.decls.length
    · rw [← afterAll_value i _ v a.fields (hgrow i hl hi) hrep, k.finish_id i hl,
        hval i hi hl (representable_gated hrep)]
    · exact den_beyond (Nat.le_of_not_lt hl) _ _
  · intro mid mid2 w1 w2 hw1 hw2 hmid hmid2 rest
    have t1 := s1 (Entry.dflt k.decls) rfl {} k.unread_start
    have t2 : ∀ rest, Runs k.kind.eof k.step (m1, { Entry.dflt k.decls with fields := r1 }, {})
        (if .r14 ≤ v then a.ext.flatMap ExtGroup.pairs else [])
        (m1, ⟨r1, if .r14 ≤ v then ExtGroup.kept a.ext else [], []⟩, {}) rest := by
      intro rest
      by_cases hv : .r14 ≤ v
      · simp only [if_pos hv]
        have := runs_groups k m1 (quiet_group hk m1).1 (next_group hk m1) k.unread_start a.ext hext
          { Entry.dflt k.decls with fields := r1 } rest
        simpa [Entry.dflt] using this
      · simp only [if_neg hv]
        exact Runs.nil _ _
    have t3 := s2 ⟨r1, if .r14 ≤ v then ExtGroup.kept a.ext else [], []⟩ rfl {} k.unread_start
    have t4 := s3 ⟨r2, if .r14 ≤ v then ExtGroup.kept a.ext else [], []⟩ rfl w1 hw1
    have t5 := s4 ⟨r3, if .r14 ≤ v then ExtGroup.kept a.ext else [], []⟩ rfl w2 hw2
    exact Runs.trans (t1 _) (Runs.trans (t2 _) (Runs.trans (t3 _) (Runs.trans (hmid _ _)
      (Runs.trans (t4 _) (Runs.trans (hmid2 _ _) (t5 _))))))

theorem always_late (k : OName) (v : Version) (hl : k.late v ≠ []) (g : GCmd k.decls)
    (hg : g ∈ k.statements) (hw : ∃ i ∈ k.late v, g.writes i = true) : ∀ r, g.cond r = true := by
  obtain ⟨i, hi, hw⟩ := hw
  revert hw
  cases k <;> first | exact absurd rfl hl | skip
  all_goals
    have h1 : i ≠ 1 := by
      rintro rfl
      revert hi
      cases v <;> decide
    clear hl hi
    revert g
    simp only [statements, part1, part2, part3, part4, objectHead, objectCmds, kind,
      Obj.materialCmds, Obj.dimensionAssocCmds, List.cons_append, List.nil_append, List.append_nil]
    repeat' first
      | exact fun _ h => absurd h List.not_mem_nil
      | (refine List.forall_mem_cons.mpr ⟨?_, ?_⟩)
      | exact fun _ _ => rfl
      | exact fun h => absurd (by simpa [GCmd.writes] using h) h1.symm

/-- The value of a field that is written after everything that is read into it. -/
theorem late_value {k : OName} (hk : k ≠ .xRecordObject) {v : Version} {sk : List Nat}
    (hc : k.check v sk = true) (a : Rec k.decls) (ht : k.Timely a) {m : OMode} {r : Rec k.decls}
    (hf : foldStaged k.kind.arms k.kind.next (OMode.start, Rec.dflt k.decls)
        (emitAll k.statements v a) = .ok (m, r)) (i : Nat) (hi : i ∈ k.late v)
    (hl : k.lateOK v i = true) (hg : (tyAt k.decls i).grows = false)
    (hrep : Representable k.statements v a i) :
    r i = if Written k.statements v a i then a i else Rec.dflt k.decls i := by
  obtain ⟨as1, m1, as2, m2, as3, m3, as4, m4, h1, h2, h3, h4, hfine, -⟩ := check_spec hc
  have ha : annotate k.kind.next k.vals OMode.start (gated v k.statements) =
      some (as1 ++ (as2 ++ (as3 ++ as4)), m4) := by
    simp only [statements, gated_append]
    exact annotate_join h1 (annotate_join h2 (annotate_join h3 h4))
  generalize as1 ++ (as2 ++ (as3 ++ as4)) = as at hfine ha
  rw [lateOK, ha] at hl
  simp only [List.any_eq_true] at hl
  obtain ⟨n, -, hn⟩ := hl
  split at hn
  · rename_i x bs hdrop
    rw [Bool.and_eq_true] at hn
    obtain ⟨hone, hok⟩ := hn
    have hst := k.steady
    have hs := fine_spec hfine
    have hcond : ∀ x ∈ as, (∀ r, x.2.cond r = true) ∨
        modeAfter k.kind.next k.vals x.1 x.2.cmd = some x.1 := fun x hx =>
      (hst x.2 (gated_mem (annotate_mem ha ▸ List.mem_map_of_mem hx))).cond hk x.1 (hs x hx).2.2.2.2
    have hsafe : ∀ x ∈ as, ∀ r0, ∃ r1, foldPairs (k.kind.arms x.1) r0 (x.2.cmd.emit a) = .ok r1 :=
      fun x hx r0 => (hs x hx).1.elim (fun h => Cmd.safeL_ok _ _ h _ _)
        (fun h => k.dated_ok _ _ h _ ht _)
    have hlen : as.length = (gated v k.statements).length := by
      rw [← annotate_mem ha, List.length_map]
    rw [← List.take_append_drop n (gated v k.statements)] at ha
    obtain ⟨bs1, m5, bs2, e1, e2, e3⟩ := EName.annotate_append ha
    have hb1 : bs1.length = ((gated v k.statements).take n).length := by
      rw [← annotate_mem e1, List.length_map]
    have hlt : n < as.length := by
      by_contra h
      rw [List.drop_of_length_le (by omega)] at hdrop
      cases hdrop
    have hb2 : bs2 = x :: bs := by
      rw [List.length_take, ← hlen, Nat.min_eq_left (by omega)] at hb1
      rw [← hdrop, e3, ← hb1, List.drop_left]
    subst hb2
    subst e3
    have hcmds := annotate_mem e2
    rw [List.map_cons] at hcmds
    have hgate := gated_gate v k.statements
    rw [← List.take_append_drop n (gated v k.statements)] at hgate
    obtain ⟨r1, f1, -⟩ := staged_fold_modes k.kind.arms k.kind.next k.vals k.next_code v a
      ((gated v k.statements).take n) (fun g hg => hgate g (List.mem_append_left _ hg)) _ _ bs1 e1
      (fun x hx => hcond x (List.mem_append_left _ hx))
      (fun x hx => hsafe x (List.mem_append_left _ hx)) (Rec.dflt k.decls)
    obtain ⟨r2, f2, hval⟩ := staged_fold_modes k.kind.arms k.kind.next k.vals k.next_code v a
      ((gated v k.statements).drop n) (fun g hg => hgate g (List.mem_append_right _ hg)) _ _ _ e2
      (fun x hx => hcond x (List.mem_append_right _ hx))
      (fun x hx => hsafe x (List.mem_append_right _ hx)) r1
    have hr : r = r2 := by
      rw [← emitAll_gated, ← List.take_append_drop n (gated v k.statements), emitAll_append,
        foldStaged_append, f1] at hf
      simp only at hf
      rw [f2] at hf
      simp only [Except.ok.injEq, Prod.mk.injEq] at hf
      exact hf.2.symm
    subst hr
    have hrep' : Representable ((gated v k.statements).drop n) v a i := fun g hg =>
      hrep g (gated_mem (List.mem_of_mem_drop hg))
    rw [hval i hok (fun x _ => k.frame x.1) hrep']
    have hx : x.2 ∈ (gated v k.statements).drop n := by
      rw [← hcmds]
      exact List.mem_cons_self
    have hxs : x.2 ∈ k.statements := gated_mem (List.mem_of_mem_drop hx)
    obtain ⟨w, c, conv, hw, hwo⟩ : ∃ w c conv, x.2.cmd.onField i = some w ∧ w = .one c conv := by
      unfold writesOne at hone
      split at hone
      · exact ⟨_, _, _, ‹_›, rfl⟩
      · cases hone
    have hwr : x.2.writes i = true := by
      rw [onField_writes, hw]
      rfl
    have hholds : x.2.holds v a = true := by
      rw [GCmd.holds, hgate _ (List.mem_append_right _ hx),
        always_late k v (List.ne_nil_of_mem hi) x.2 hxs ⟨i, hi, hwr⟩]
      rfl
    rw [if_pos ⟨x.2, hxs, hwr, hholds⟩]
    rw [← hcmds] at hrep' ⊢
    rw [afterAll, hw]
    simp only [hholds, if_true]
    subst hwo
    exact afterAll_written i _ v a (fun g hg => hrep' g (List.mem_cons_of_mem _ hg)) hg _
      (.inr rfl) (.inr rfl)
  · cases hn

end OName
end Dxf
