import Verif.Lemmas.Local

/-! The readers are local. -/

namespace Dxf

/-! ### Extension groups and extended data -/

theorem readExtItems_mono : Mono readExtItems := by
  intro k
  induction k with
  | zero => exact Below.out
  | succ k ih =>
    unfold readExtItems
    below

theorem readExtItems_loc (fuel : Nat) : Loc (readExtItems fuel) := by
  induction fuel with
  | zero => exact .fail
  | succ fuel ih => unfold readExtItems; locally

theorem extGroup_loc (name : Str) (off : Nat) : Loc (ExtGroup.read name off) := by
  unfold ExtGroup.read
  split
  · exact .withFuel (fun k => .bind (readExtItems_loc _) fun _ => .pure)
      fun k => .bind (readExtItems_mono k) fun _ => .rfl
  · exact .fail

theorem readDouble_loc (c : Int) : Loc (XDataItem.readDouble c) := by
  unfold XDataItem.readDouble
  locally

theorem readPoint_loc (x : F64) (c : Int) : Loc (XDataItem.readPoint x c) := by
  unfold XDataItem.readPoint
  exact .bind (readDouble_loc _) fun _ => .bind (readDouble_loc _) fun _ => .pure

theorem readItem_loc {group : Rd (List XDataItem)} {p : CodePair} (hg : Loc group) :
    Loc (XDataItem.readItem group p) := by
  unfold XDataItem.readItem
  locally
  all_goals first | exact readPoint_loc _ _ | exact readDouble_loc _

theorem readItem_below {group group' : Rd (List XDataItem)} {p : CodePair}
    (hg : Below group group') : Below (XDataItem.readItem group p) (XDataItem.readItem group' p) := by
  unfold XDataItem.readItem
  below

theorem readGroup_mono : Mono XDataItem.readGroup := by
  intro k
  induction k with
  | zero => exact Below.out
  | succ k ih =>
    have hj : ∀ (p : CodePair) (close : Bool), Below (if close = true then pure [] else do
        let i ← XDataItem.readItem (XDataItem.readGroup k) p
        let is ← XDataItem.readGroup k
        pure (i :: is)) (if close = true then pure [] else do
        let i ← XDataItem.readItem (XDataItem.readGroup (k + 1)) p
        let is ← XDataItem.readGroup (k + 1)
        pure (i :: is)) := fun p close => .ite .rfl
      (.bind (readItem_below ih) fun _ => .bind ih fun _ => .rfl)
    unfold XDataItem.readGroup
    exact .bind .rfl fun p => .ite .rfl (.ite (.bind .rfl (hj p)) (hj p false))

theorem readGroup_loc (fuel : Nat) : Loc (XDataItem.readGroup fuel) := by
  induction fuel with
  | zero => exact .fail
  | succ fuel ih =>
    have hj : ∀ (p : CodePair) (close : Bool), LocP p (if close = true then pure [] else do
        let i ← XDataItem.readItem (XDataItem.readGroup fuel) p
        let is ← XDataItem.readGroup fuel
        pure (i :: is)) := fun p close => .ite (fun _ => .pure) fun _ =>
      .bind (readItem_loc ih) fun _ => .bind ih fun _ => .pure
    unfold XDataItem.readGroup
    exact .next fun p => .ite (fun _ => .fail) fun _ =>
      .ite (fun _ => .bindLift (hj p)) fun _ => hj p false

theorem xReadItems_mono : Mono XData.readItems := by
  intro k
  induction k with
  | zero => exact Below.out
  | succ k ih =>
    unfold XData.readItems
    below
    all_goals first | exact readItem_below (readGroup_mono _) | exact readGroup_mono _

theorem xReadItems_loc (fuel : Nat) : Loc (XData.readItems fuel) := by
  induction fuel with
  | zero => exact .fail
  | succ fuel ih =>
    unfold XData.readItems
    locally
    all_goals first | exact readItem_loc (readGroup_loc _) | exact readGroup_loc _

theorem xData_loc (name : Str) : Loc (XData.read name) :=
  .withFuel (fun k => .bind (xReadItems_loc _) fun _ => .pure)
    fun k => .bind (xReadItems_mono k) fun _ => .rfl

/-! ### Items -/

theorem entryApply_loc {ds : List Decl} (arms : List (Arm ds)) (p : CodePair) (e : Entry ds) :
    Loc (Entry.apply arms p e) := by
  unfold Entry.apply
  exact .ite (fun _ => .bind .lift fun _ => .bind (extGroup_loc _ _) fun _ => .pure)
    fun _ => .ite (fun _ => .bind .lift fun _ => .bind (xData_loc _) fun _ => .pure)
      fun _ => .bind .lift fun _ => .pure

theorem itemLoop_mono {σ : Type} (eof : Bool) (step : CodePair → σ → Rd σ) (st : σ) :
    Mono fun k => itemLoop eof step k st := by
  intro k
  induction k generalizing st with
  | zero => exact Below.out
  | succ k ih =>
    dsimp only at ih ⊢
    unfold itemLoop
    below
    exact ih _

theorem itemLoop_loc {σ : Type} (eof : Bool) {step : CodePair → σ → Rd σ}
    (hstep : ∀ p st, Loc (step p st)) (fuel : Nat) : ∀ st, Loc (itemLoop eof step fuel st) := by
  induction fuel with
  | zero => exact fun _ => .fail
  | succ fuel ih =>
    intro st
    unfold itemLoop
    locally
    · exact hstep _ _
    · exact ih _

theorem item_loc {σ : Type} (eof : Bool) {step : CodePair → σ → Rd σ}
    (hstep : ∀ p st, Loc (step p st)) (st : σ) :
    Loc (Rd.withFuel fun fuel => itemLoop eof step fuel st) :=
  .withFuel (fun _ => itemLoop_loc eof hstep _ _) (itemLoop_mono _ _ _)

theorem swallowItem_loc : Loc swallowItem := item_loc false (fun _ _ => .pure) ()

/-! ### Entities -/

theorem EName.step_loc (k : EName) (p : CodePair) (st : Mode × Entry k.decls) : Loc (k.step p st) :=
  .bind (entryApply_loc _ _ _) fun _ => .pure

theorem readEntity_mono : Mono readEntity := by
  intro k
  induction k with
  | zero => exact Below.out
  | succ k ih =>
    unfold readEntity
    refine .bind .rfl fun p => .ite (.bind .rfl fun s => .ite .rfl ?_) .rfl
    cases EName.ofType s with
    | none => exact .bind .rfl fun _ => ih
    | some k' =>
      refine .bind .rfl fun st => ?_
      cases k'.kind.sub st.1 with
      | none => exact ih
      | some m => exact .rfl

theorem readEntity_loc (fuel : Nat) : Loc (readEntity fuel) := by
  induction fuel with
  | zero => exact .fail
  | succ fuel ih =>
    unfold readEntity
    refine .next fun p => .ite (fun _ => .bindLift fun s => .ite (fun _ => .bindBack .pure)
      fun _ => .drop ?_) fun _ => .fail
    cases EName.ofType s with
    | none => exact .bind swallowItem_loc fun _ => ih
    | some k =>
      refine .bind (item_loc _ k.step_loc _) fun st => ?_
      cases k.kind.sub st.1 with
      | none => exact ih
      | some m => exact .pure

/-- A reader of items that takes an error for the end. -/
theorem Loc.endAtError {α : Type} {r r' : Rd α} (h : Loc r) (k1 : ∀ s, (r' s).2 = (r s).2)
    (k2 : ∀ s, Calm (r' s).1 → Calm (r s).1)
    (k3 : ∀ s s', (r s).1 = (r s').1 → (r' s).1 = (r' s').1) : Loc r' := by
  refine ⟨fun n s hs hn => ⟨?_, by simp⟩, ?_⟩
  · rw [k1 s]
    exact (h.nice n s hs hn).1
  · intro u z z' t hfi hz hl ht hc he
    rw [k1 (u ++ z)] at he
    have := h.loc u z z' t hfi hz hl ht (k2 _ hc) he
    refine Prod.ext ?_ ?_
    · exact k3 _ _ (by rw [this])
    · rw [k1, this]

theorem nextEntity_loc : Loc nextEntity := by
  refine Loc.endAtError (.withFuel readEntity_loc readEntity_mono) (fun s => ?_) (fun s => ?_)
    fun s s' => ?_
  · unfold nextEntity
    rcases Rd.withFuel readEntity s with ⟨e | a, s'⟩
    · cases e <;> rfl
    · rfl
  · unfold nextEntity
    rcases Rd.withFuel readEntity s with ⟨e | a, s'⟩
    · cases e <;> simp [Calm]
    · simp [Calm]
  · unfold nextEntity
    rcases Rd.withFuel readEntity s with ⟨e | a, t⟩ <;>
    rcases Rd.withFuel readEntity s' with ⟨e' | a', t'⟩ <;> intro he <;> cases he
    · cases e <;> rfl
    · rfl

theorem nextSlot_loc (slot : Option Flat) : Loc (nextSlot slot) := by
  cases slot with
  | none => exact nextEntity_loc
  | some x => exact .pure

theorem swallowSeqend_loc (slot : Option Flat) : Loc (swallowSeqend slot) := by
  unfold swallowSeqend
  refine .bind (nextSlot_loc _) fun a => ?_
  cases a with
  | none => exact .pure
  | some x => exact .ite (fun _ => .pure) fun _ => .pure

theorem takeMText_loc (slot : Option Flat) : Loc (takeMText slot) := by
  unfold takeMText
  refine .bind (nextSlot_loc _) fun a => ?_
  split <;> exact .pure

theorem gatherAtts_mono (slot : Option Flat) : Mono fun k => gatherAtts k slot := by
  intro k
  induction k generalizing slot with
  | zero => exact Below.out
  | succ k ih =>
    dsimp only at ih ⊢
    unfold gatherAtts
    refine .bind .rfl fun a => ?_
    split
    · exact .bind (ih _) fun _ => .rfl
    · exact .rfl
    · exact .rfl

theorem gatherVerts_mono (slot : Option Flat) : Mono fun k => gatherVerts k slot := by
  intro k
  induction k generalizing slot with
  | zero => exact Below.out
  | succ k ih =>
    dsimp only at ih ⊢
    unfold gatherVerts
    refine .bind .rfl fun a => ?_
    split
    · exact .bind (ih _) fun _ => .rfl
    · exact .rfl
    · exact .rfl

theorem gatherAtts_loc (fuel : Nat) : ∀ slot, Loc (gatherAtts fuel slot) := by
  induction fuel with
  | zero => exact fun _ => .fail
  | succ fuel ih =>
    intro slot
    unfold gatherAtts
    refine .bind (nextSlot_loc _) fun a => ?_
    split
    · exact .bind (ih _) fun _ => .pure
    · exact .pure
    · exact .pure

theorem gatherVerts_loc (fuel : Nat) : ∀ slot, Loc (gatherVerts fuel slot) := by
  induction fuel with
  | zero => exact fun _ => .fail
  | succ fuel ih =>
    intro slot
    unfold gatherVerts
    refine .bind (nextSlot_loc _) fun a => ?_
    split
    · exact .bind (ih _) fun _ => .pure
    · exact .pure
    · exact .pure

theorem collectEntities_mono (slot : Option Flat) : Mono fun k => collectEntities k slot := by
  intro k
  induction k generalizing slot with
  | zero => exact Below.out
  | succ k ih =>
    dsimp only at ih ⊢
    unfold collectEntities
    refine .bind .rfl fun a => ?_
    cases a with
    | none => exact .rfl
    | some x =>
      exact .ite (.bind .rfl fun _ => .bind (ih _) fun _ => .rfl)
        (.ite (.bind .rfl fun _ => .bind .rfl fun _ => .bind (ih _) fun _ => .rfl)
          (.ite (.bind .rfl fun _ => .bind .rfl fun _ => .bind (ih _) fun _ => .rfl)
            (.bind (ih _) fun _ => .rfl)))

theorem collectEntities_loc (fuel : Nat) : ∀ slot, Loc (collectEntities fuel slot) := by
  induction fuel with
  | zero => exact fun _ => .fail
  | succ fuel ih =>
    intro slot
    unfold collectEntities
    refine .bind (nextSlot_loc _) fun a => ?_
    cases a with
    | none => exact .pure
    | some x =>
      exact .ite (fun _ => .bind (takeMText_loc _) fun _ => .bind (ih _) fun _ => .pure)
        fun _ => .ite (fun _ => .bind (.withFuel (fun _ => gatherAtts_loc _ _) (gatherAtts_mono _))
          fun _ => .bind (swallowSeqend_loc _) fun _ => .bind (ih _) fun _ => .pure)
        fun _ => .ite (fun _ => .bind (.withFuel (fun _ => gatherVerts_loc _ _) (gatherVerts_mono _))
          fun _ => .bind (swallowSeqend_loc _) fun _ => .bind (ih _) fun _ => .pure)
        fun _ => .bind (ih _) fun _ => .pure

theorem readEntities_loc : Loc readEntities :=
  .withFuel (fun _ => collectEntities_loc _ _) (collectEntities_mono _)

/-! ### Blocks -/

theorem blockReadFrom_mono (b : Block) : Mono fun k => Block.readFrom k b := by
  intro k
  induction k generalizing b with
  | zero => exact Below.out
  | succ k ih =>
    dsimp only at ih ⊢
    unfold Block.readFrom
    exact .bind .rfl fun _ => .bind .rfl fun _ => .ite .rfl (.bind .rfl fun _ =>
      .bind .rfl fun _ => ih _)

theorem blockReadFrom_loc (fuel : Nat) : ∀ b, Loc (Block.readFrom fuel b) := by
  induction fuel with
  | zero => exact fun _ => .fail
  | succ fuel ih =>
    intro b
    unfold Block.readFrom
    exact .bind (item_loc _ (fun _ _ => entryApply_loc _ _ _) _) fun _ => .next fun p =>
      .ite (fun _ => .bind swallowItem_loc fun _ => .pure) fun _ =>
        .bindBack (.bind readEntities_loc fun _ => ih _)

theorem blockRead_loc : Loc Block.read :=
  .withFuel (fun _ => blockReadFrom_loc _ _) (blockReadFrom_mono _)

/-! ### Objects -/

theorem geometryLoop_mono (g : Geometry) : Mono fun k => Geometry.loop k g := by
  intro k
  induction k generalizing g with
  | zero => exact Below.out
  | succ k ih =>
    dsimp only at ih ⊢
    unfold Geometry.loop
    refine .bind .rfl fun a => ?_
    cases a with
    | none => exact .rfl
    | some p =>
      refine .ite .rfl ?_
      cases findArm geometryArms p.code with
      | none => exact .rfl
      | some a => exact .bind .rfl fun _ => ih _

theorem geometryLoop_loc (fuel : Nat) : ∀ g, Loc (Geometry.loop fuel g) := by
  induction fuel with
  | zero => exact fun _ => .fail
  | succ fuel ih =>
    intro g
    unfold Geometry.loop
    refine .next? .pure fun p => .ite (fun _ => .pure) fun _ => ?_
    cases findArm geometryArms p.code with
    | none => exact .bindBack .pure
    | some a => exact .bindLift fun _ => .drop (ih _)

theorem geometryRead_loc : Loc Geometry.read := by
  unfold Geometry.read
  exact .next? .pure fun p => .bindBack (.ite (fun _ => .bind (.withFuel
    (fun _ => geometryLoop_loc _ _) (geometryLoop_mono _)) fun _ => .pure) fun _ => .pure)

theorem geometryReadAll_mono : Mono Geometry.readAll := by
  intro k
  induction k with
  | zero => exact Below.out
  | succ k ih =>
    unfold Geometry.readAll
    refine .bind .rfl fun a => ?_
    cases a with
    | none => exact .rfl
    | some g => exact .bind ih fun _ => .rfl

theorem geometryReadAll_loc (fuel : Nat) : Loc (Geometry.readAll fuel) := by
  induction fuel with
  | zero => exact .fail
  | succ fuel ih =>
    unfold Geometry.readAll
    refine .bind geometryRead_loc fun a => ?_
    cases a with
    | none => exact .pure
    | some g => exact .bind ih fun _ => .pure

theorem sectionTypeLoop_mono (x : SectionType) : Mono fun k => SectionType.loop k x := by
  intro k
  induction k generalizing x with
  | zero => exact Below.out
  | succ k ih =>
    dsimp only at ih ⊢
    unfold SectionType.loop
    refine .bind .rfl fun a => ?_
    cases a with
    | none => exact .rfl
    | some p =>
      dsimp only
      repeat' refine Below.ite ?_ ?_
      all_goals first
        | exact .rfl
        | exact ih _
        | exact .bind .rfl fun _ => ih _

theorem sectionTypeLoop_loc (fuel : Nat) : ∀ x, Loc (SectionType.loop fuel x) := by
  induction fuel with
  | zero => exact fun _ => .fail
  | succ fuel ih =>
    intro x
    unfold SectionType.loop
    refine .next? .pure fun p => ?_
    repeat' refine LocP.ite (fun _ => ?_) fun _ => ?_
    all_goals first
      | exact .bindBack .pure
      | exact .bindLift fun _ => .drop (ih _)
      | exact .drop (ih _)
      | exact .bind (.withFuel geometryReadAll_loc geometryReadAll_mono) fun _ => ih _

theorem sectionTypeRead_loc : Loc SectionType.read := by
  unfold SectionType.read
  exact .next? .pure fun p => .bindBack (.ite (fun _ => .pure) fun _ => .bind (.withFuel
    (fun _ => sectionTypeLoop_loc _ _) (sectionTypeLoop_mono _)) fun _ => .pure)

theorem sectionTypeReadAll_mono : Mono SectionType.readAll := by
  intro k
  induction k with
  | zero => exact Below.out
  | succ k ih =>
    unfold SectionType.readAll
    refine .bind .rfl fun a => ?_
    cases a with
    | none => exact .rfl
    | some g => exact .bind ih fun _ => .rfl

theorem sectionTypeReadAll_loc (fuel : Nat) : Loc (SectionType.readAll fuel) := by
  induction fuel with
  | zero => exact .fail
  | succ fuel ih =>
    unfold SectionType.readAll
    refine .bind sectionTypeRead_loc fun a => ?_
    cases a with
    | none => exact .pure
    | some g => exact .bind ih fun _ => .pure

theorem cellStyle_mono (b : Bool) (c : CellStyle) : Mono fun k => CellStyle.read k b c := by
  intro k
  induction k generalizing b c with
  | zero => exact Below.out
  | succ k ih =>
    dsimp only at ih ⊢
    unfold CellStyle.read
    refine .bind .rfl fun a => ?_
    cases a with
    | none => exact .rfl
    | some p =>
      refine .ite .rfl (.ite (.ite .rfl (.bind .rfl fun _ => ih _ _)) ?_)
      cases findArm cellArms p.code with
      | none => exact .rfl
      | some a => exact .bind .rfl fun _ => ih _ _

theorem cellStyle_loc (fuel : Nat) : ∀ b c, Loc (CellStyle.read fuel b c) := by
  induction fuel with
  | zero => exact fun _ _ => .fail
  | succ fuel ih =>
    intro b c
    unfold CellStyle.read
    refine .next? .pure fun p => .ite (fun _ => .pure) fun _ => .ite (fun _ =>
      .ite (fun _ => .bindBack .pure) fun _ => .bindLift fun _ => .drop (ih _ _)) fun _ => ?_
    cases findArm cellArms p.code with
    | none => exact .bindBack .pure
    | some a => exact .bindLift fun _ => .drop (ih _ _)

theorem odd_loc (k : OName) (m : OMode) (p : CodePair) (w : OWork) (act : Rd OWork)
    (h : k.odd m p w = some act) : Loc act := by
  have sv : ∀ (w : OWork) (x : DataTableValue), Loc (w.setValue x) := fun w x =>
    .bind .lift fun _ => .pure
  have dict : ∀ act, w.dictionary p = some act → Loc act := by
    intro act h
    unfold OWork.dictionary at h
    split at h
    · cases h
      exact .bind .lift fun _ => .pure
    · split at h
      · cases h
        exact .bind .lift fun _ => .pure
      · cases h
  cases k
  case dictionary => exact dict act h
  case dictionaryWithDefault => exact dict act h
  case dataTable =>
    replace h : w.dataTable p = some act := h
    unfold OWork.dataTable at h
    dsimp only at h
    split at h
    all_goals first
      | (cases h
         first
          | exact .bind .lift fun _ => .pure
          | exact .bind .lift fun _ => sv _ _
          | exact .bind .lift fun _ => .bind (sv _ _) fun _ => .pure)
      | (split at h
         · cases h
           exact .bind .lift fun _ => sv _ _
         · cases h)
  case sectionSettings =>
    replace h : w.sections p = some act := h
    unfold OWork.sections at h
    split at h
    · cases h
      exact .bind (.withFuel sectionTypeReadAll_loc sectionTypeReadAll_mono) fun _ => .pure
    · cases h
  case spatialFilter =>
    replace h : w.spatial m p = some act := h
    unfold OWork.spatial at h
    repeat' split at h
    all_goals first
      | (cases h
         first
          | exact .bind .lift fun _ => .pure
          | exact .lift)
      | cases h
  case sunStudy =>
    replace h : w.sunStudy m p = some act := h
    unfold OWork.sunStudy at h
    split at h
    · cases h
      cases w.day with
      | none => exact .bind .lift fun _ => .pure
      | some jd =>
        exact .bind .lift fun d => .bind .lift fun x => .bind .lift fun _ => .pure
    · split at h
      · cases h
        exact .bind .lift fun _ => .pure
      · cases h
  case tableStyle =>
    replace h : w.cells p = some act := h
    unfold OWork.cells at h
    split at h
    · rename_i hp
      cases h
      have hr : Loc (Rd.putBack p >>= fun _ =>
          Rd.withFuel fun fuel => CellStyle.read fuel false (Rec.dflt _)) := by
        have : (Rd.putBack p >>= fun _ =>
            Rd.withFuel fun fuel => CellStyle.read fuel false (Rec.dflt _)) =
          Rd.withFuel fun fuel => Rd.lift p.assertString >>= fun x =>
            CellStyle.read fuel true (Rec.set (Rec.dflt cellDecls) 0 (x : Str)) :=
          funext fun s => cells_run hp s
        rw [this]
        exact .withFuel (fun _ => .bind .lift fun _ => cellStyle_loc _ _ _)
          fun k => .bind .rfl fun _ => cellStyle_mono _ _ k
      refine Eq.mp (congrArg Loc ?_) (Loc.bind hr (f := fun c =>
        (pure { w with extra := { w.extra with cells := w.extra.cells ++ [c] } } : Rd OWork))
        fun c => .pure)
      funext s
      rfl
    · cases h
  case xRecordObject =>
    replace h : w.xRecord m p = some act := h
    unfold OWork.xRecord at h
    split at h
    · cases h
      exact .pure
    · cases h
  all_goals exact absurd h (by simp [OName.odd])

theorem OName.step_loc (k : OName) (p : CodePair) (st : OState k) : Loc (k.step p st) := by
  unfold OName.step
  cases h : k.odd st.1 p st.2.2 with
  | some act => exact .bind (odd_loc k _ _ _ _ h) fun _ => .pure
  | none => exact .bind (entryApply_loc _ _ _) fun _ => .pure

theorem readObject_mono : Mono readObject := by
  intro k
  induction k with
  | zero => exact Below.out
  | succ k ih =>
    unfold readObject
    refine .bind .rfl fun p => .ite (.bind .rfl fun s => .ite .rfl ?_) .rfl
    cases OName.ofType s with
    | none => exact .bind .rfl fun _ => ih
    | some k' => exact .rfl

theorem readObject_loc (fuel : Nat) : Loc (readObject fuel) := by
  induction fuel with
  | zero => exact .fail
  | succ fuel ih =>
    unfold readObject
    refine .next fun p => .ite (fun _ => .bindLift fun s => .ite (fun _ => .bindBack .pure)
      fun _ => .drop ?_) fun _ => .fail
    cases OName.ofType s with
    | none => exact .bind swallowItem_loc fun _ => ih
    | some k => exact .bind (item_loc _ k.step_loc _) fun st => .pure

theorem nextObject_loc : Loc nextObject := by
  refine Loc.endAtError (.withFuel readObject_loc readObject_mono) (fun s => ?_) (fun s => ?_)
    fun s s' => ?_
  · unfold nextObject
    rcases Rd.withFuel readObject s with ⟨e | a, s'⟩
    · cases e <;> rfl
    · rfl
  · unfold nextObject
    rcases Rd.withFuel readObject s with ⟨e | a, s'⟩
    · cases e <;> simp [Calm]
    · simp [Calm]
  · unfold nextObject
    rcases Rd.withFuel readObject s with ⟨e | a, t⟩ <;>
    rcases Rd.withFuel readObject s' with ⟨e' | a', t'⟩ <;> intro he <;> cases he
    · cases e <;> rfl
    · rfl

theorem collectObjects_mono : Mono collectObjects := by
  intro k
  induction k with
  | zero => exact Below.out
  | succ k ih =>
    unfold collectObjects
    refine .bind .rfl fun a => ?_
    cases a with
    | none => exact .rfl
    | some x => exact .bind ih fun _ => .rfl

theorem collectObjects_loc (fuel : Nat) : Loc (collectObjects fuel) := by
  induction fuel with
  | zero => exact .fail
  | succ fuel ih =>
    unfold collectObjects
    refine .bind nextObject_loc fun a => ?_
    cases a with
    | none => exact .pure
    | some x => exact .bind ih fun _ => .pure

theorem readObjects_loc : Loc readObjects := .withFuel collectObjects_loc collectObjects_mono

/-! ### Header, classes, tables, thumbnail -/

theorem headerValues_mono (name : Str) (r : Header) :
    Mono fun k => headerValues Header.vars name k r := by
  intro k
  induction k generalizing r with
  | zero => exact Below.out
  | succ k ih =>
    dsimp only at ih ⊢
    unfold headerValues
    refine .bind .rfl fun a => ?_
    cases a with
    | none => exact .rfl
    | some p => exact .ite .rfl (.bind .rfl fun _ => ih _)

theorem headerValues_loc (name : Str) (fuel : Nat) : ∀ r,
    Loc (headerValues Header.vars name fuel r) := by
  induction fuel with
  | zero => exact fun _ => .fail
  | succ fuel ih =>
    intro r
    unfold headerValues
    exact .next? .pure fun p => .ite (fun _ => .bindBack .pure) fun _ => .bindLift fun _ => .drop (ih _)

theorem headerLoop_mono (r : Header) : Mono fun k => headerLoop Header.vars k r := by
  intro k
  induction k generalizing r with
  | zero => exact Below.out
  | succ k ih =>
    dsimp only at ih ⊢
    unfold headerLoop
    refine .bind .rfl fun a => ?_
    cases a with
    | none => exact .rfl
    | some p => exact .ite .rfl (.ite (.bind .rfl fun _ => .bind .rfl fun _ => ih _) .rfl)

theorem headerLoop_loc (fuel : Nat) : ∀ r, Loc (headerLoop Header.vars fuel r) := by
  induction fuel with
  | zero => exact fun _ => .fail
  | succ fuel ih =>
    intro r
    unfold headerLoop
    exact .next? .pure fun p => .ite (fun _ => .bindBack .pure) fun _ => .ite (fun _ =>
      .bindLift fun _ => .bind (.withFuel (fun _ => headerValues_loc _ _ _) (headerValues_mono _ _))
        fun _ => ih _) fun _ => .fail

theorem header_loc (h0 : Header) : Loc (Header.read h0) :=
  .withFuel (fun _ => headerLoop_loc _ _) (headerLoop_mono _)

theorem classReadAll_mono (v : Version) : Mono (Class.readAll v) := by
  intro k
  induction k with
  | zero => exact Below.out
  | succ k ih =>
    unfold Class.readAll
    exact .bind .rfl fun p => .ite (.bind .rfl fun _ => .ite .rfl (.bind .rfl fun _ =>
      .bind ih fun _ => .rfl)) ih

theorem classReadAll_loc (v : Version) (fuel : Nat) : Loc (Class.readAll v fuel) := by
  induction fuel with
  | zero => exact .fail
  | succ fuel ih =>
    unfold Class.readAll
    exact .next fun p => .ite (fun _ => .bindLift fun _ => .ite (fun _ => .bindBack .pure) fun _ =>
      .bind (item_loc _ (fun _ _ => .lift) _) fun _ => .bind ih fun _ => .pure) fun _ => .drop ih

theorem tableRead_mono (K : TableKind) : Mono K.read := by
  intro k
  induction k with
  | zero => exact Below.out
  | succ k ih =>
    unfold TableKind.read
    exact .bind .rfl fun p => .ite (.bind .rfl fun _ => .ite .rfl (.bind .rfl fun _ =>
      .bind ih fun _ => .rfl)) ih

theorem tableRead_loc (K : TableKind) (fuel : Nat) : Loc (K.read fuel) := by
  induction fuel with
  | zero => exact .fail
  | succ fuel ih =>
    unfold TableKind.read
    exact .next fun p => .ite (fun _ => .bindLift fun _ => .ite (fun _ => .bindBack .pure) fun _ =>
      .bind (item_loc _ (fun _ _ => entryApply_loc _ _ _) _) fun _ => .bind ih fun _ => .pure)
        fun _ => .drop ih

theorem readChunks_mono : Mono Thumbnail.readChunks := by
  intro k
  induction k with
  | zero => exact Below.out
  | succ k ih =>
    unfold Thumbnail.readChunks
    refine .bind .rfl fun a => ?_
    cases a with
    | none => exact .rfl
    | some p => exact .ite .rfl (.ite (.bind .rfl fun _ => .bind ih fun _ => .rfl) .rfl)

theorem readChunks_loc (fuel : Nat) : Loc (Thumbnail.readChunks fuel) := by
  induction fuel with
  | zero => exact .fail
  | succ fuel ih =>
    unfold Thumbnail.readChunks
    exact .next? .pure fun p => .ite (fun _ => .bindBack .pure) fun _ => .ite (fun _ =>
      .bindLift fun _ => .bind ih fun _ => .pure) fun _ => .fail

theorem thumbnail_loc {Img : Type} (codec : ImageCodec Img) : Loc (Thumbnail.read codec) := by
  unfold Thumbnail.read
  refine .bind ?_ fun a => ?_
  · unfold Thumbnail.readBytes
    exact .next? .pure fun p => .ite (fun _ => .bindBack .pure) fun _ => .ite (fun _ =>
      .bindLift fun _ => .bind (.withFuel readChunks_loc readChunks_mono) fun _ =>
        .bind .lift fun _ => .pure) fun _ => .fail
  · cases a with
    | none => exact .pure
    | some d =>
      refine .bind .lift fun b => ?_
      cases b with
      | none => exact .pure
      | some d => exact .bind .lift fun _ => .pure

/-! ### Sections -/

namespace Drawing

variable {Img : Type}

theorem expect_loc (mark : Str) : Loc (expect mark) := by
  unfold expect
  exact .next fun p => .ite (fun _ => .pure) fun _ => .fail

theorem swallowTable_mono : Mono swallowTable := by
  intro k
  induction k with
  | zero => exact Below.out
  | succ k ih =>
    unfold swallowTable
    exact .bind .rfl fun p => .ite (.bind .rfl fun _ => .ite .rfl ih) ih

theorem swallowTable_loc (fuel : Nat) : Loc (swallowTable fuel) := by
  induction fuel with
  | zero => exact .fail
  | succ fuel ih =>
    unfold swallowTable
    exact .next fun p => .ite (fun _ => .bindLift fun _ => .ite (fun _ => .putBack) fun _ => .drop ih)
      fun _ => .drop ih

theorem swallowSection_mono : Mono swallowSection := by
  intro k
  induction k with
  | zero => exact Below.out
  | succ k ih =>
    unfold swallowSection
    refine .bind .rfl fun a => ?_
    cases a with
    | none => exact .rfl
    | some p => exact .ite (.bind .rfl fun _ => .ite .rfl ih) ih

theorem swallowSection_loc (fuel : Nat) : Loc (swallowSection fuel) := by
  induction fuel with
  | zero => exact .fail
  | succ fuel ih =>
    unfold swallowSection
    exact .next? .pure fun p => .ite (fun _ => .bindLift fun _ => .ite (fun _ => .putBack)
      fun _ => .drop ih) fun _ => .drop ih

theorem readTable_loc (d : Drawing Img) : Loc (readTable d) := by
  unfold readTable
  refine .next fun p => .ite (fun _ => .fail) fun _ => .bindLift fun s => .drop ?_
  cases tableOf s with
  | none =>
    exact .bind (.withFuel swallowTable_loc swallowTable_mono) fun _ => .bind (expect_loc _)
      fun _ => .pure
  | some T =>
    exact .bind (.withFuel (tableRead_loc _) (tableRead_mono _)) fun _ => .bind .lift fun _ =>
      .bind (expect_loc _) fun _ => .pure

theorem readItems_mono (type : Str) (callback : Drawing Img → Rd (Drawing Img)) (d : Drawing Img) :
    Mono fun k => readItems type callback k d := by
  intro k
  induction k generalizing d with
  | zero => exact Below.out
  | succ k ih =>
    dsimp only at ih ⊢
    unfold readItems
    exact .bind .rfl fun p => .ite (.bind .rfl fun _ => .ite .rfl (.ite (.bind .rfl fun _ => ih _)
      .rfl)) .rfl

theorem readItems_loc {type : Str} {callback : Drawing Img → Rd (Drawing Img)}
    (hc : ∀ d, Loc (callback d)) (fuel : Nat) : ∀ d, Loc (readItems type callback fuel d) := by
  induction fuel with
  | zero => exact fun _ => .fail
  | succ fuel ih =>
    intro d
    unfold readItems
    exact .next fun p => .ite (fun _ => .bindLift fun _ => .ite (fun _ => .bindBack .pure)
      fun _ => .ite (fun _ => .bind (hc _) fun _ => ih _) fun _ => .fail) fun _ => .fail

theorem readSection_loc (codec : ImageCodec Img) (h0 : Header) (name : Str) (d : Drawing Img) :
    Loc (readSection codec h0 name d) := by
  unfold readSection
  exact .ite (fun _ => .bind (header_loc _) fun _ => .pure) fun _ =>
    .ite (fun _ => .bind (.withFuel (classReadAll_loc _) (classReadAll_mono _)) fun _ => .pure)
      fun _ =>
    .ite (fun _ => .withFuel (fun _ => readItems_loc readTable_loc _ _) (readItems_mono _ _ _))
      fun _ =>
    .ite (fun _ => .withFuel (fun _ => readItems_loc (fun _ => .bind blockRead_loc fun _ => .lift)
      _ _) (readItems_mono _ _ _)) fun _ =>
    .ite (fun _ => .bind readEntities_loc fun _ => .lift) fun _ =>
    .ite (fun _ => .bind readObjects_loc fun _ => .lift) fun _ =>
    .ite (fun _ => .bind (thumbnail_loc codec) fun _ => .pure) fun _ =>
    .bind (.withFuel swallowSection_loc swallowSection_mono) fun _ => .pure

theorem readSections_mono (codec : ImageCodec Img) (h0 : Header) (d : Drawing Img) :
    Mono fun k => readSections codec h0 k d := by
  intro k
  induction k generalizing d with
  | zero => exact Below.out
  | succ k ih =>
    dsimp only at ih ⊢
    unfold readSections
    refine .bind .rfl fun a => ?_
    cases a with
    | none => exact .rfl
    | some p =>
      refine .ite (.bind .rfl fun _ => .ite .rfl (.ite (.bind .rfl fun q => ?_) .rfl)) .rfl
      split
      · exact .ite (.bind .rfl fun _ => .bind .rfl fun _ => ih _) .rfl
      · exact .rfl

theorem readSections_loc (codec : ImageCodec Img) (h0 : Header) (fuel : Nat) : ∀ d,
    Loc (readSections codec h0 fuel d) := by
  induction fuel with
  | zero => exact fun _ => .fail
  | succ fuel ih =>
    intro d
    unfold readSections
    refine .next? .pure fun p => .ite (fun _ => .bindLift fun _ => .ite (fun _ => .bindBack .pure)
      fun _ => .ite (fun _ => .drop (.next fun q => ?_)) fun _ => .fail) fun _ => .fail
    split
    · exact .ite (fun _ => .bind (readSection_loc _ _ _ _) fun _ => .bind (expect_loc _)
        fun _ => ih _) fun _ => .fail
    · exact .fail

end Drawing

end Dxf
