import Verif.Lemmas.Alike

/-! The readers of items do not depend on the pair behind the item. -/

namespace Dxf

variable {C : Int → Prop}

/-! ### Extension groups and extended data -/

theorem readExtItems_locC (hC : ¬ C 999) (fuel : Nat) : LocC C (readExtItems fuel) := by
  induction fuel with
  | zero => exact .fail
  | succ fuel ih =>
    unfold readExtItems
    refine .nextDrop hC fun p => .ite (fun _ => .bind .lift fun a => ?_) fun _ =>
      .bind ih fun _ => .pure
    split
    · exact .bind ih fun _ => .bind ih fun _ => .pure
    · exact .ite (fun _ => .pure) fun _ => .fail

theorem extGroup_locC (hC : ¬ C 999) (name : Str) (off : Nat) : LocC C (ExtGroup.read name off) := by
  unfold ExtGroup.read
  split
  · exact .withFuel (fun k => .bind (readExtItems_locC hC _) fun _ => .pure)
      fun k => .bind (readExtItems_mono k) fun _ => .rfl
  · exact .fail

theorem readDouble_locC (hC : ¬ C 999) (c : Int) : LocC C (XDataItem.readDouble c) := by
  unfold XDataItem.readDouble
  exact .nextDrop hC fun p => .ite (fun _ => .lift) fun _ => .fail

theorem readPoint_locC (hC : ¬ C 999) (x : F64) (c : Int) : LocC C (XDataItem.readPoint x c) := by
  unfold XDataItem.readPoint
  exact .bind (readDouble_locC hC _) fun _ => .bind (readDouble_locC hC _) fun _ => .pure

theorem readItem_locC (hC : ¬ C 999) {group : Rd (List XDataItem)} {p : CodePair}
    (hg : LocC C group) : LocC C (XDataItem.readItem group p) := by
  unfold XDataItem.readItem
  repeat' first
    | exact .fail
    | exact .bind .lift fun _ => .pure
    | exact .bind hg fun _ => .pure
    | exact .bind .lift fun _ => .bind .lift fun _ => .pure
    | exact .bind .lift fun _ => .bind (readPoint_locC hC _ _) fun _ => .pure
    | exact .bind .lift fun _ => .bind (readDouble_locC hC _) fun _ =>
        .bind (readDouble_locC hC _) fun _ => .pure
    | refine LocC.ite (fun _ => ?_) fun _ => ?_

theorem readGroup_locC (hC : ¬ C 999) (fuel : Nat) : LocC C (XDataItem.readGroup fuel) := by
  induction fuel with
  | zero => exact .fail
  | succ fuel ih =>
    have hj : ∀ (p : CodePair) (close : Bool), LocC C (if close = true then pure [] else do
        let i ← XDataItem.readItem (XDataItem.readGroup fuel) p
        let is ← XDataItem.readGroup fuel
        pure (i :: is)) := fun p close => .ite (fun _ => .pure) fun _ =>
      .bind (readItem_locC hC ih) fun _ => .bind ih fun _ => .pure
    unfold XDataItem.readGroup
    exact .nextDrop hC fun p => .ite (fun _ => .fail) fun _ =>
      .ite (fun _ => .bind .lift (hj p)) fun _ => hj p false

theorem xReadItems_locC (hC : ∀ c, C c → (c = 1001 ∨ c < 1000) ∧ c ≠ 999) (fuel : Nat) :
    LocC C (XData.readItems fuel) := by
  have h9 : ¬ C 999 := fun h => (hC _ h).2 rfl
  induction fuel with
  | zero => exact .fail
  | succ fuel ih =>
    unfold XData.readItems
    refine .next? h9 .pure (fun p => .ite (fun _ => .back) fun _ => .ite (fun _ => .back) fun _ =>
      .bind (readItem_locC h9 (readGroup_locC h9 _)) fun _ => .bind ih fun _ => .pure) ?_
    intro p p' hp hp'
    have e : ∀ q : CodePair, C q.code → (if q.code = 0 then (do Rd.putBack q; return []) else
        if q.code = 1001 ∨ q.code < 1000 then (do Rd.putBack q; return []) else (do
        let i ← XDataItem.readItem (XDataItem.readGroup fuel) q
        let is ← XData.readItems fuel
        return i :: is) : Rd (List XDataItem)) = (do Rd.putBack q; return []) := by
      intro q hq
      split
      · rfl
      · rw [if_pos (hC _ hq).1]
    dsimp only
    rw [e p hp, e p' hp']
    exact .back

theorem xData_locC (hC : ∀ c, C c → (c = 1001 ∨ c < 1000) ∧ c ≠ 999) (name : Str) : LocC C (XData.read name) :=
  .withFuel (fun k => .bind (xReadItems_locC hC _) fun _ => .pure)
    fun k => .bind (xReadItems_mono k) fun _ => .rfl

/-! ### Items -/

theorem entryApply_locC (hC : ∀ c, C c → (c = 1001 ∨ c < 1000) ∧ c ≠ 999) {ds : List Decl} (arms : List (Arm ds))
    (p : CodePair) (e : Entry ds) : LocC C (Entry.apply arms p e) := by
  have h9 : ¬ C 999 := fun h => (hC _ h).2 rfl
  unfold Entry.apply
  exact .ite (fun _ => .bind .lift fun _ => .bind (extGroup_locC h9 _ _) fun _ => .pure)
    fun _ => .ite (fun _ => .bind .lift fun _ => .bind (xData_locC hC _) fun _ => .pure)
      fun _ => .bind .lift fun _ => .pure

theorem itemLoop_locC {σ : Type} (eof : Bool) {step : CodePair → σ → Rd σ}
    (hstep : ∀ p st, LocC (· = 0) (step p st)) (fuel : Nat) :
    ∀ st, LocC (· = 0) (itemLoop eof step fuel st) := by
  induction fuel with
  | zero => exact fun _ => .fail
  | succ fuel ih =>
    intro st
    unfold itemLoop
    refine .next? (by decide) (.ite (fun _ => .pure) fun _ => .fail) (fun p => .ite (fun _ => .back)
      fun _ => .bind (hstep _ _) fun _ => ih _) ?_
    intro p p' hp hp'
    dsimp only at hp hp' ⊢
    rw [if_pos hp, if_pos hp']
    exact .back

theorem item_locC {σ : Type} (eof : Bool) {step : CodePair → σ → Rd σ}
    (hstep : ∀ p st, LocC (· = 0) (step p st)) (st : σ) :
    LocC (· = 0) (Rd.withFuel fun fuel => itemLoop eof step fuel st) :=
  .withFuel (fun _ => itemLoop_locC eof hstep _ _) (itemLoop_mono _ _ _)

theorem swallowItem_locC : LocC (· = 0) swallowItem := item_locC false (fun _ _ => .pure) ()

theorem EName.step_locC (hC : ∀ c, C c → (c = 1001 ∨ c < 1000) ∧ c ≠ 999) (k : EName) (p : CodePair)
    (st : Mode × Entry k.decls) : LocC C (k.step p st) :=
  .bind (entryApply_locC hC _ _ _) fun _ => .pure

/-! ### Objects -/

theorem geometryLoop_locC (fuel : Nat) : ∀ g, LocC (· = 0) (Geometry.loop fuel g) := by
  induction fuel with
  | zero => exact fun _ => .fail
  | succ fuel ih =>
    intro g
    unfold Geometry.loop
    refine .next? (by decide) .pure (fun p => .ite (fun _ => .drop .pure) fun _ => ?_) ?_
    · cases findArm geometryArms p.code with
      | none => exact .back
      | some a => exact .bindLift fun _ => .drop (ih _)
    · intro p p' hp hp'
      dsimp only at hp hp' ⊢
      rw [hp, hp']
      exact .back

theorem geometryRead_locC : LocC (· = 0) Geometry.read := by
  unfold Geometry.read
  refine .next? (by decide) .pure (fun p => .bindBack (.ite (fun _ => .bind (.withFuel
    (fun _ => geometryLoop_locC _ _) (geometryLoop_mono _)) fun _ => .pure) fun _ => .pure)) ?_
  intro p p' hp hp'
  dsimp only at hp hp' ⊢
  rw [hp, hp']
  exact .back

theorem geometryReadAll_locC (fuel : Nat) : LocC (· = 0) (Geometry.readAll fuel) := by
  induction fuel with
  | zero => exact .fail
  | succ fuel ih =>
    unfold Geometry.readAll
    refine .bind geometryRead_locC fun a => ?_
    cases a with
    | none => exact .pure
    | some g => exact .bind ih fun _ => .pure

theorem sectionTypeLoop_locC (fuel : Nat) : ∀ x, LocC (· = 0) (SectionType.loop fuel x) := by
  induction fuel with
  | zero => exact fun _ => .fail
  | succ fuel ih =>
    intro x
    unfold SectionType.loop
    refine .next? (by decide) .pure (fun p => ?_) ?_
    · repeat' refine LocCP.ite (fun _ => ?_) fun _ => ?_
      all_goals first
        | exact .back
        | exact .bindLift fun _ => .drop (ih _)
        | exact .drop (ih _)
        | exact .bind (.withFuel geometryReadAll_locC geometryReadAll_mono) fun _ => ih _
    · intro p p' hp hp'
      dsimp only at hp hp' ⊢
      rw [if_pos hp, if_pos hp']
      exact .back

theorem sectionTypeRead_locC : LocC (· = 0) SectionType.read := by
  unfold SectionType.read
  refine .next? (by decide) .pure (fun p => .bindBack (.ite (fun _ => .pure) fun _ => .bind
    (.withFuel (fun _ => sectionTypeLoop_locC _ _) (sectionTypeLoop_mono _)) fun _ => .pure)) ?_
  intro p p' hp hp'
  dsimp only at hp hp' ⊢
  rw [if_pos hp, if_pos hp']
  exact .back

theorem sectionTypeReadAll_locC (fuel : Nat) : LocC (· = 0) (SectionType.readAll fuel) := by
  induction fuel with
  | zero => exact .fail
  | succ fuel ih =>
    unfold SectionType.readAll
    refine .bind sectionTypeRead_locC fun a => ?_
    cases a with
    | none => exact .pure
    | some g => exact .bind ih fun _ => .pure

theorem cellStyle_locC (fuel : Nat) : ∀ b c, LocC (· = 0) (CellStyle.read fuel b c) := by
  induction fuel with
  | zero => exact fun _ _ => .fail
  | succ fuel ih =>
    intro b c
    unfold CellStyle.read
    refine .next? (by decide) .pure (fun p => .ite (fun _ => .drop .pure) fun _ => .ite (fun _ =>
      .ite (fun _ => .back) fun _ => .bindLift fun _ => .drop (ih _ _)) fun _ => ?_) ?_
    · cases findArm cellArms p.code with
      | none => exact .back
      | some a => exact .bindLift fun _ => .drop (ih _ _)
    · intro p p' hp hp'
      dsimp only at hp hp' ⊢
      rw [if_pos hp, if_pos hp']
      exact .drop .pure

theorem odd_locC (k : OName) (m : OMode) (p : CodePair) (w : OWork) (act : Rd OWork)
    (h : k.odd m p w = some act) : LocC (· = 0) act := by
  have sv : ∀ (w : OWork) (x : DataTableValue), LocC (· = 0) (w.setValue x) := fun w x =>
    .bind .lift fun _ => .pure
  have dict : ∀ act, w.dictionary p = some act → LocC (· = 0) act := by
    intro act h
    unfold OWork.dictionary at h
    split at h
    · cases h
      exact .bind .lift fun _ => .pure
    · split at h
      · cases h
        exact .bind .lift fun _ => .pure
      · cases h
  cases k
  case dictionary => exact dict act h
  case dictionaryWithDefault => exact dict act h
  case dataTable =>
    replace h : w.dataTable p = some act := h
    unfold OWork.dataTable at h
    dsimp only at h
    split at h
    all_goals first
      | (cases h
         first
          | exact .bind .lift fun _ => .pure
          | exact .bind .lift fun _ => sv _ _
          | exact .bind .lift fun _ => .bind (sv _ _) fun _ => .pure)
      | (split at h
         · cases h
           exact .bind .lift fun _ => sv _ _
         · cases h)
  case sectionSettings =>
    replace h : w.sections p = some act := h
    unfold OWork.sections at h
    split at h
    · cases h
      exact .bind (.withFuel sectionTypeReadAll_locC sectionTypeReadAll_mono) fun _ => .pure
    · cases h
  case spatialFilter =>
    replace h : w.spatial m p = some act := h
    unfold OWork.spatial at h
    repeat' split at h
    all_goals first
      | (cases h
         first
          | exact .bind .lift fun _ => .pure
          | exact .lift)
      | cases h
  case sunStudy =>
    replace h : w.sunStudy m p = some act := h
    unfold OWork.sunStudy at h
    split at h
    · cases h
      cases w.day with
      | none => exact .bind .lift fun _ => .pure
      | some jd =>
        exact .bind .lift fun d => .bind .lift fun x => .bind .lift fun _ => .pure
    · split at h
      · cases h
        exact .bind .lift fun _ => .pure
      · cases h
  case tableStyle =>
    replace h : w.cells p = some act := h
    unfold OWork.cells at h
    split at h
    · rename_i hp
      cases h
      have hr : LocC (· = 0) (Rd.putBack p >>= fun _ =>
          Rd.withFuel fun fuel => CellStyle.read fuel false (Rec.dflt _)) := by
        have : (Rd.putBack p >>= fun _ =>
            Rd.withFuel fun fuel => CellStyle.read fuel false (Rec.dflt _)) =
          Rd.withFuel fun fuel => Rd.lift p.assertString >>= fun x =>
            CellStyle.read fuel true (Rec.set (Rec.dflt cellDecls) 0 (x : Str)) :=
          funext fun s => cells_run hp s
        rw [this]
        exact .withFuel (fun _ => .bind .lift fun _ => cellStyle_locC _ _ _)
          fun k => .bind .rfl fun _ => cellStyle_mono _ _ k
      refine Eq.mp (congrArg (LocC (· = 0)) ?_) (LocC.bind hr (f := fun c =>
        (pure { w with extra := { w.extra with cells := w.extra.cells ++ [c] } } : Rd OWork))
        fun c => .pure)
      funext s
      rfl
    · cases h
  case xRecordObject =>
    replace h : w.xRecord m p = some act := h
    unfold OWork.xRecord at h
    split at h
    · cases h
      exact .pure
    · cases h
  all_goals exact absurd h (by simp [OName.odd])

theorem zero_stops : ∀ c : Int, c = 0 → (c = 1001 ∨ c < 1000) ∧ c ≠ 999 := by omega

theorem OName.step_locC (k : OName) (p : CodePair) (st : OState k) :
    LocC (· = 0) (k.step p st) := by
  unfold OName.step
  cases h : k.odd st.1 p st.2.2 with
  | some act => exact .bind (odd_locC k _ _ _ _ h) fun _ => .pure
  | none => exact .bind (entryApply_locC zero_stops _ _ _) fun _ => .pure

end Dxf
