import Verif.Spec.Brackets
import Verif.Lemmas.Block
import Verif.Lemmas.Class
import Verif.Lemmas.EntityChecks

/-! Pairs that are written do not open or close anything unexpectedly. -/

namespace Dxf

theorem quiet_of_ne {p : CodePair} (h : p.code ≠ 0) : Quiet p := fun h0 => absurd h0 h

theorem quiet_str {s : Str} (h : s ∉ brackets) : Quiet (.newStr 0 s) := fun _ => ⟨s, rfl, h⟩

theorem AllQuiet.nil : AllQuiet [] := fun _ h => nomatch h

theorem AllQuiet.cons {p : CodePair} {ps : List CodePair} (h : Quiet p) (hs : AllQuiet ps) :
    AllQuiet (p :: ps) := List.forall_mem_cons.mpr ⟨h, hs⟩

theorem AllQuiet.append {a b : List CodePair} (ha : AllQuiet a) (hb : AllQuiet b) :
    AllQuiet (a ++ b) := List.forall_mem_append.mpr ⟨ha, hb⟩

theorem AllQuiet.flatMap {α : Type} {l : List α} {f : α → List CodePair}
    (h : ∀ x ∈ l, AllQuiet (f x)) : AllQuiet (l.flatMap f) := by
  intro p hp
  obtain ⟨x, hx, hp⟩ := List.mem_flatMap.mp hp
  exact h x hx p hp

theorem AllQuiet.map {α : Type} {l : List α} {f : α → CodePair}
    (h : ∀ x ∈ l, Quiet (f x)) : AllQuiet (l.map f) := by
  intro p hp
  obtain ⟨x, hx, rfl⟩ := List.mem_map.mp hp
  exact h x hx

theorem AllQuiet.ite {c : Prop} [Decidable c] {a b : List CodePair} (ha : AllQuiet a)
    (hb : AllQuiet b) : AllQuiet (if c then a else b) := by
  split <;> assumption

/-- No pair has the code 0. -/
def NoZeros (ps : List CodePair) : Prop := ∀ p ∈ ps, p.code ≠ 0

theorem NoZeros.quiet {ps : List CodePair} (h : NoZeros ps) : AllQuiet ps :=
  fun p hp => quiet_of_ne (h p hp)

/-- Statements that do not write the code 0. -/
def GCmd.nonzero {ds : List Decl} (cmds : List (GCmd ds)) : Bool :=
  cmds.all fun g => g.cmd.codes.all fun c => decide (c ≠ 0)

theorem emitAll_quiet {ds : List Decl} (cmds : List (GCmd ds)) (v : Version) (r : Rec ds)
    (h : GCmd.nonzero cmds = true) : AllQuiet (emitAll cmds v r) := by
  intro p hp
  obtain ⟨g, hg, _, hp⟩ := mem_emitAll hp
  exact quiet_of_ne (of_decide_eq_true
    (List.all_eq_true.mp (List.all_eq_true.mp h g hg) _ (g.cmd.mem_codes r p hp)))

theorem xdata_quiet (xs : List XData) (v : Version) : AllQuiet (xs.flatMap fun x => x.pairs v) :=
  .flatMap fun x _ p hp => quiet_of_ne (XData.inert x v p hp).1

theorem ext_quiet {gs : List ExtGroup} (v : Version) (h : ∀ g ∈ gs, AllQuiet g.pairs) :
    AllQuiet (if .r14 ≤ v then gs.flatMap ExtGroup.pairs else []) :=
  .ite (.flatMap h) .nil

/-! ### Header, classes and tables -/

theorem header_quiet (r : Header) : AllQuiet r.body := by
  have h : (Header.cmds.all fun c => c.g.cmd.codes.all fun c => decide (c ≠ 0)) = true := by
    decide +kernel
  refine AllQuiet.flatMap fun c hc => ?_
  unfold HCmd.emit
  refine .ite (.cons (quiet_of_ne (by simp [CodePair.newStr])) fun p hp => quiet_of_ne ?_) .nil
  exact of_decide_eq_true
    (List.all_eq_true.mp (List.all_eq_true.mp h c hc) _ (c.g.cmd.mem_codes r p hp))

theorem class_quiet (v : Version) (c : Class) (h : ¬ .r14 ≤ v → c.recordName ∉ brackets) :
    AllQuiet (c.pairs v) := by
  rw [Class.pairs_eq]
  refine .cons (quiet_str ?_) fun p hp => quiet_of_ne (Class.tail_codes v c p hp).1
  unfold Class.mark
  split
  · decide
  · exact h ‹_›

theorem tables_nonzero (t : TName) (wh : Bool) :
    (GCmd.nonzero (t.kind.head wh) && GCmd.nonzero t.kind.cmds &&
      decide (t.kind.typeString ∉ brackets)) = true := by
  cases wh <;> cases t <;> decide +kernel

theorem tableItem_quiet (t : TName) (v : Version) (wh : Bool) (x : TableItem t.kind)
    (h : ∀ g ∈ x.ext, AllQuiet g.pairs) : AllQuiet (t.kind.itemPairs v wh x) := by
  have hz := tables_nonzero t wh
  simp only [Bool.and_eq_true] at hz
  obtain ⟨⟨h1, h2⟩, h3⟩ := hz
  unfold TableKind.itemPairs
  exact .append (.append (.append (.cons (quiet_str (of_decide_eq_true h3))
    (emitAll_quiet _ v _ h1)) (ext_quiet v h)) (emitAll_quiet _ v _ h2)) (xdata_quiet _ _)

/-! ### Entities -/

theorem entity_cmds (k : EName) (n : Nat) :
    (GCmd.nonzero (k.kind.cmds n) && decide (k.kind.typeString ∉ brackets)) = true := by
  cases k
  case dimension =>
    match n with
    | 0 => decide +kernel
    | 1 => decide +kernel
    | 2 => decide +kernel
    | 3 => decide +kernel
    | 4 => decide +kernel
    | 5 => decide +kernel
    | _ + 6 => rfl
  case insert => rfl
  all_goals rfl

theorem entity_common (k : EName) (wh : Bool) :
    (GCmd.nonzero (commonHead k.kind.spec wh) && GCmd.nonzero (commonCmds k.kind.spec wh)) =
      true := by
  cases wh <;> rfl

theorem entity_quiet (k : EName) (n : Nat) (v : Version) (wh : Bool) (e : Entry k.decls)
    {post : List CodePair} (hp : AllQuiet post) (h : ∀ g ∈ e.ext, AllQuiet g.pairs) :
    AllQuiet (k.pairs n v wh e post) := by
  have h1 := entity_cmds k n
  have h2 := entity_common k wh
  simp only [Bool.and_eq_true] at h1 h2
  unfold EName.pairs EName.front
  refine .ite (.append (.append (.append (.append (.cons (quiet_str (of_decide_eq_true h1.2))
    (emitAll_quiet _ v _ h2.1)) (ext_quiet v h)) (emitAll_quiet _ v _ ?_)) hp) (xdata_quiet _ _)) .nil
  unfold GCmd.nonzero at h1 h2 ⊢
  rw [List.all_append, h2.2, h1.1]
  rfl

theorem mText_quiet (v : Version) (wh : Bool) (c : Rec commonDecls) (m : MTextRec) :
    AllQuiet (mTextPairs v wh c m) :=
  entity_quiet _ _ _ _ _ .nil (fun _ h => nomatch h)

theorem seqend_quiet (wh : Bool) (h : Handle) : AllQuiet (seqendPairs wh h) := by
  unfold seqendPairs
  refine .cons (quiet_str (by decide)) ?_
  cases wh
  · exact .nil
  · exact .cons (quiet_of_ne (by simp [CodePair.newStr])) .nil

theorem post_quiet (v : Version) (wh : Bool) (e : Entity) : AllQuiet (e.post v wh) := by
  unfold Entity.post
  split
  · exact mText_quiet _ _ _ _
  · exact mText_quiet _ _ _ _
  · refine .append (.flatMap fun a _ => entity_quiet _ _ _ _ _ (mText_quiet _ _ _ _) fun _ h => nomatch h) ?_
    rename_i x
    cases x.atts.isEmpty
    · exact seqend_quiet _ _
    · exact .nil
  · exact .append (.flatMap fun a _ => entity_quiet _ _ _ _ _ .nil fun _ h => nomatch h)
      (seqend_quiet _ _)
  · exact .nil

theorem wholeEntity_quiet (v : Version) (wh : Bool) (e : Entity)
    (h : ∀ g ∈ e.entry.ext, AllQuiet g.pairs) : AllQuiet (e.pairs v wh) :=
  entity_quiet _ _ _ _ _ (post_quiet v wh e) h

/-! ### Objects -/

theorem object_nonzero (k : OName) :
    (GCmd.nonzero (objectHead k.kind.spec) && GCmd.nonzero (objectCmds k.kind.spec) &&
      GCmd.nonzero k.kind.cmds && GCmd.nonzero k.kind.cmds2 && GCmd.nonzero k.kind.cmds3 &&
      decide (k.kind.typeString ∉ brackets)) = true := by
  cases k <;> decide +kernel

theorem mapM_ok {α β : Type} {f : α → Except DxfErr β} {l : List α} {r : List β}
    (h : l.mapM f = .ok r) : ∀ y ∈ r, ∃ x ∈ l, f x = .ok y := by
  induction l generalizing r with
  | nil => cases h; exact fun _ h => nomatch h
  | cons a l ih =>
    rw [List.mapM_cons] at h
    cases ha : f a with
    | error e => rw [ha] at h; cases h
    | ok b =>
      rw [ha] at h
      cases hl : l.mapM f with
      | error e => rw [hl] at h; cases h
      | ok bs =>
        rw [hl] at h
        cases h
        intro y hy
        rcases List.mem_cons.mp hy with rfl | hy
        · exact ⟨a, List.mem_cons_self, ha⟩
        · obtain ⟨x, hx, hxy⟩ := ih hl y hy
          exact ⟨x, List.mem_cons_of_mem _ hx, hxy⟩

theorem dataValue_quiet (x : DataTableValue) : AllQuiet x.pairs := by
  intro p hp
  apply quiet_of_ne
  cases x <;> simp only [DataTableValue.pairs, List.mem_cons, List.not_mem_nil, or_false] at hp
  all_goals first
    | (subst hp; simp [CodePair.newI16, CodePair.newI32, CodePair.newStr, CodePair.newF64])
    | (rcases hp with rfl | rfl | rfl <;> simp [CodePair.newF64])

theorem column_quiet {d : DataTable} {col : Nat} {ps : List CodePair}
    (h : d.columnPairs col = .ok ps) : AllQuiet ps := by
  unfold DataTable.columnPairs at h
  cases hc : d.cell 0 col with
  | error e => rw [hc] at h; cases h
  | ok c =>
    rw [hc] at h
    cases c with
    | none => cases h; exact .nil
    | some x =>
      simp only [bind, Except.bind] at h
      cases hn : d.columnNames[col]? with
      | none => rw [hn] at h; cases h
      | some name =>
        rw [hn] at h
        simp only at h
        cases hm : (List.range d.rowCount).mapM fun row => d.cell row col with
        | error e => rw [hm] at h; cases h
        | ok cells =>
          rw [hm] at h
          cases h
          refine .cons (quiet_of_ne (by simp [CodePair.newI32]))
            (.cons (quiet_of_ne (by simp [CodePair.newStr])) (.flatMap fun c _ => ?_))
          cases c with
          | none => exact .nil
          | some v => exact dataValue_quiet v

theorem tail_quiet {o : Object} {ps : List CodePair} (h : o.tail = .ok ps)
    (hx : AllQuiet o.extra.pairs) : AllQuiet ps := by
  have hi (c : Int) (hc : c ≠ 0) (v) : Quiet (.newI32 c v) := quiet_of_ne hc
  have hs (c : Int) (hc : c ≠ 0) (v) : Quiet (.newStr c v) := quiet_of_ne hc
  have hf (c : Int) (hc : c ≠ 0) (v) : Quiet (.newF64 c v) := quiet_of_ne hc
  have h16 (c : Int) (hc : c ≠ 0) (v) : Quiet (.newI16 c v) := quiet_of_ne hc
  unfold Object.tail at h
  split at h
  · cases h
    refine .flatMap fun x _ => .cons (hs _ (by decide) _) (.cons (hs _ ?_ _) .nil)
    cases hardOwner _ <;> decide
  · cases h
    exact .flatMap fun x _ => .cons (hs _ (by decide) _) (.cons (hs _ (by decide) _) .nil)
  · rename_i x
    unfold DataTable.pairs at h
    cases hm : (List.range x.table.columnCount).mapM x.table.columnPairs with
    | error e => rw [hm] at h; cases h
    | ok cols =>
      rw [hm] at h
      cases h
      refine .cons (hi _ (by decide) _) (.cons (hi _ (by decide) _) (.cons (hs _ (by decide) _) ?_))
      intro p hp
      obtain ⟨l, hl, hp⟩ := List.mem_flatten.mp hp
      obtain ⟨c, _, hc⟩ := mapM_ok hm l hl
      exact column_quiet hc p hp
  · cases h
    refine .cons (hi _ (by decide) _) (.append (.flatMap fun x _ => ?_) (.cons (hi _ (by decide) _)
      (.flatMap fun x _ => ?_)))
    · exact .cons (hf _ (by decide) _) (.cons (hf _ (by decide) _) (.cons (hf _ (by decide) _)
        (.cons (hf _ (by decide) _) .nil)))
    · exact .cons (hi _ (by decide) _) (.cons (hi _ (by decide) _) (.cons (hi _ (by decide) _) .nil))
  · cases h
    exact .cons (hi _ (by decide) _) (.flatMap fun x _ => .cons (hs _ (by decide) _)
      (.cons (hs _ (by decide) _) .nil))
  · cases h
    exact .cons (h16 _ (by decide) _) (.flatMap fun x _ => .cons (hf _ (by decide) _)
      (.cons (h16 _ (by decide) _) (.cons (hs _ (by decide) _) .nil)))
  · cases h
    refine .cons (hi _ (by decide) _) (.flatMap fun x _ => ?_)
    unfold SectionType.pairs
    refine .append (.append (.append (.append ?_ (.map fun _ _ => hs _ (by decide) _)) ?_)
      (.flatMap fun g _ => ?_)) (.cons (hs _ (by decide) _) .nil)
    · exact .cons (hs _ (by decide) _) (.cons (hi _ (by decide) _) (.cons (hi _ (by decide) _)
        (.cons (hi _ (by decide) _) .nil)))
    · exact .cons (hs _ (by decide) _) (.cons (hs _ (by decide) _) (.cons (hi _ (by decide) _)
        (.cons (hs _ (by decide) _) .nil)))
    · exact .append (emitAll_quiet _ _ _ (by decide +kernel)) (.cons (hs _ (by decide) _) .nil)
  · cases h
    exact .map fun _ _ => hf _ (by decide) _
  · cases h
    exact .flatMap fun c _ => emitAll_quiet _ _ _ (by decide +kernel)
  · cases h
    exact hx
  · cases h
    exact .nil

theorem mid_quiet (k : OName) (x : OExtra) : AllQuiet (k.mid x) := by
  have hi (c : Int) (hc : c ≠ 0) (v) : Quiet (.newI32 c v) := quiet_of_ne hc
  have hf (c : Int) (hc : c ≠ 0) (v) : Quiet (.newF64 c v) := quiet_of_ne hc
  have h16 (c : Int) (hc : c ≠ 0) (v) : Quiet (.newI16 c v) := quiet_of_ne hc
  unfold OName.mid
  split
  · exact .cons (h16 _ (by decide) _) (.flatMap fun x _ => .cons (hf _ (by decide) _)
      (.cons (hf _ (by decide) _) (.cons (hf _ (by decide) _) .nil)))
  · exact .cons (hi _ (by decide) _) (.map fun x _ => hi _ (by decide) _)
  · exact .nil

theorem mid2_quiet (k : OName) (x : OExtra) : AllQuiet (k.mid2 x) := by
  have h16 (c : Int) (hc : c ≠ 0) (v) : Quiet (.newI16 c v) := quiet_of_ne hc
  unfold OName.mid2
  split
  · exact .cons (h16 _ (by decide) _) (.map fun x _ => h16 _ (by decide) _)
  · exact .nil

theorem object_quiet {v : Version} {o : Object} {ps : List CodePair} (h : o.pairs v = .ok ps)
    (hg : ∀ g ∈ o.entry.ext, AllQuiet g.pairs) (hx : AllQuiet o.extra.pairs) : AllQuiet ps := by
  have hz := object_nonzero o.kind
  simp only [Bool.and_eq_true] at hz
  obtain ⟨⟨⟨⟨⟨h1, h2⟩, h3⟩, h4⟩, h5⟩, h6⟩ := hz
  unfold Object.pairs at h
  split at h
  · cases ht : o.tail with
    | error e => rw [ht] at h; cases h
    | ok tail =>
      rw [ht] at h
      cases h
      refine .append (.append ?_ (tail_quiet ht hx)) (xdata_quiet _ _)
      unfold Object.front
      refine .append (.append (.append (.append (.append (.append (.cons
        (quiet_str (of_decide_eq_true h6)) (emitAll_quiet _ v _ h1)) (ext_quiet v hg))
        (emitAll_quiet _ v _ ?_)) (mid_quiet _ _)) (emitAll_quiet _ v _ h4)) (mid2_quiet _ _))
        (emitAll_quiet _ v _ h5)
      unfold GCmd.nonzero at h2 h3 ⊢
      rw [List.all_append, h2, h3]
      rfl
  · cases h
    exact .nil

end Dxf
