import Verif.Lemmas.BlindItems
import Verif.Model.Objects

/-! The readers of objects do not depend on the places of the pairs. -/

namespace Dxf

theorem OName.arms_blind (k : OName) (m : OMode) : ∀ a ∈ k.kind.arms m, a.act.Blind := by
  cases k
  case layout =>
    simp only [OName.kind, Obj.layoutArms]
    cases m.a <;> exact blind_of_on _ (by decide +kernel)
  case mLineStyle | sortentsTable | tableStyle | material =>
    simp only [OName.kind, Obj.mLineStyleArms, Obj.sortentsTableArms, Obj.tableStyleArms,
      Obj.materialArms, objectArms, List.cons_append, List.nil_append]
    repeat' first
      | exact fun _ h => absurd h List.not_mem_nil
      | (refine List.forall_mem_cons.mpr ⟨?_, ?_⟩)
      | exact trivial
      | (unfold Act.Blind; dsimp only; split <;> exact trivial)
      | (unfold Act.Blind; dsimp only; cases m.a <;> exact trivial)
      | (unfold Act.Blind; dsimp only; cases m.seen.contains _ <;> exact trivial)
      | (unfold Act.Blind; dsimp only; generalize List.count _ m.seen = n;
         rcases n with _ | _ | n <;> exact trivial)
  all_goals
    simp only [OName.kind]
    exact blind_of_on _ (by decide +kernel)

theorem geometryArms_blind : ∀ a ∈ geometryArms, a.act.Blind := blind_of_on _ (by decide +kernel)
theorem cellArms_blind : ∀ a ∈ cellArms, a.act.Blind := blind_of_on _ (by decide +kernel)

theorem geometryLoop_blind (fuel : Nat) : ∀ g,
    Blind id (Geometry.loop fuel g) (Geometry.loop fuel g) := by
  induction fuel with
  | zero => exact fun _ => Blind.fail rfl
  | succ fuel ih =>
    intro g
    unfold Geometry.loop
    refine Blind.bindNext? (Blind.pure rfl) fun p => Blind.ite Iff.rfl (fun _ => Blind.pure rfl)
      fun _ => ?_
    rw [show p.strip.code = p.code from rfl]
    cases findArm geometryArms p.code with
    | none => exact Blind.bindBack p (Blind.pure rfl)
    | some a => exact Blind.bindLift (Like.applyPair _ geometryArms_blind _ p) ih

theorem geometryRead_blind : Blind id Geometry.read Geometry.read := by
  unfold Geometry.read
  exact Blind.bindNext? (Blind.pure rfl) fun p => Blind.bindBack p (Blind.ite Iff.rfl
    (fun _ => Blind.bindId (Blind.withFuel fun k => geometryLoop_blind k _) fun _ => Blind.pure rfl)
    fun _ => Blind.pure rfl)

theorem geometryReadAll_blind (fuel : Nat) :
    Blind id (Geometry.readAll fuel) (Geometry.readAll fuel) := by
  induction fuel with
  | zero => exact Blind.fail rfl
  | succ fuel ih =>
    unfold Geometry.readAll
    refine Blind.bindId geometryRead_blind fun a => ?_
    cases a with
    | none => exact Blind.pure rfl
    | some g => exact Blind.bindId ih fun _ => Blind.pure rfl

theorem sectionTypeLoop_blind (fuel : Nat) : ∀ s,
    Blind id (SectionType.loop fuel s) (SectionType.loop fuel s) := by
  induction fuel with
  | zero => exact fun _ => Blind.fail rfl
  | succ fuel ih =>
    intro s
    unfold SectionType.loop
    refine Blind.bindNext? (Blind.pure rfl) fun p => ?_
    repeat' refine Blind.ite Iff.rfl (fun _ => ?_) fun _ => ?_
    all_goals first
      | exact Blind.bindBack p (Blind.pure rfl)
      | exact Blind.bindLift (Like.assertString p) fun _ => ih _
      | exact Blind.bindLift (Like.assertI32 p) fun _ => ih _
      | exact Blind.bindLift (Like.asHandle p) fun _ => ih _
      | exact ih _
      | exact Blind.bindId (Blind.withFuel fun _ => geometryReadAll_blind _) fun _ => ih _

theorem sectionTypeRead_blind : Blind id SectionType.read SectionType.read := by
  unfold SectionType.read
  exact Blind.bindNext? (Blind.pure rfl) fun p => Blind.bindBack p (Blind.ite Iff.rfl
    (fun _ => Blind.pure rfl) fun _ => Blind.bindId (Blind.withFuel fun k =>
      sectionTypeLoop_blind k _) fun _ => Blind.pure rfl)

theorem sectionTypeReadAll_blind (fuel : Nat) :
    Blind id (SectionType.readAll fuel) (SectionType.readAll fuel) := by
  induction fuel with
  | zero => exact Blind.fail rfl
  | succ fuel ih =>
    unfold SectionType.readAll
    refine Blind.bindId sectionTypeRead_blind fun a => ?_
    cases a with
    | none => exact Blind.pure rfl
    | some g => exact Blind.bindId ih fun _ => Blind.pure rfl

theorem cellStyle_blind (fuel : Nat) : ∀ b c,
    Blind id (CellStyle.read fuel b c) (CellStyle.read fuel b c) := by
  induction fuel with
  | zero => exact fun _ _ => Blind.fail rfl
  | succ fuel ih =>
    intro b c
    unfold CellStyle.read
    refine Blind.bindNext? (Blind.pure rfl) fun p => Blind.ite Iff.rfl (fun _ => Blind.pure rfl)
      fun _ => Blind.ite Iff.rfl (fun _ => Blind.ite Iff.rfl
        (fun _ => Blind.bindBack p (Blind.pure rfl)) fun _ =>
          Blind.bindLift (Like.assertString p) fun _ => ih _ _) fun _ => ?_
    rw [show p.strip.code = p.code from rfl]
    cases findArm cellArms p.code with
    | none => exact Blind.bindBack p (Blind.pure rfl)
    | some a => exact Blind.bindLift (Like.applyPair _ cellArms_blind _ p) fun _ => ih _ _

/-- The state without places. -/
def OWork.strip (w : OWork) : OWork := { w with extra := w.extra.strip }

/-- Both readers or none. -/
def BlindO : Option (Rd OWork) → Option (Rd OWork) → Prop
  | none, none => True
  | some a, some b => Blind OWork.strip a b
  | _, _ => False

theorem BlindO.ite {c c' : Prop} [Decidable c] [Decidable c'] {a b a' b' : Option (Rd OWork)}
    (h : c' ↔ c) (ha : BlindO a a') (hb : BlindO b b') :
    BlindO (if c then a else b) (if c' then a' else b') := by
  by_cases hc : c
  · rw [if_pos hc, if_pos (h.mpr hc)]; exact ha
  · rw [if_neg hc, if_neg fun h' => hc (h.mp h')]; exact hb

theorem setValue_blind (w : OWork) (x : DataTableValue) :
    Blind OWork.strip (w.setValue x) (w.strip.setValue x) :=
  Blind.bindLift Like.rfl' fun _ => Blind.pure rfl

theorem dictionary_blind (p : CodePair) (w : OWork) :
    BlindO (w.dictionary p) (w.strip.dictionary p.strip) :=
  BlindO.ite Iff.rfl (Blind.bindLift (Like.assertString p) fun _ => Blind.pure rfl)
    (BlindO.ite Iff.rfl (Blind.bindLift (Like.asHandle p) fun _ => Blind.pure rfl) trivial)

theorem dataTable_blind (p : CodePair) (w : OWork) :
    BlindO (w.dataTable p) (w.strip.dataTable p.strip) := by
  unfold OWork.dataTable
  dsimp only
  rw [show p.strip.code = p.code from rfl]
  split
  all_goals first
    | exact Blind.bindLift (Like.assertString p) fun _ => Blind.pure rfl
    | exact Blind.bindLift (Like.assertI32 p) fun _ => Blind.pure rfl
    | exact Blind.bindLift (Like.assertF64 p) fun _ => Blind.pure rfl
    | exact Blind.bindLift (Like.assertString p) fun _ => setValue_blind _ _
    | exact Blind.bindLift (Like.assertF64 p) fun _ => setValue_blind _ _
    | exact Blind.bindLift (Like.assertI16 p) fun _ => setValue_blind _ _
    | exact Blind.bindLift (Like.assertI32 p) fun _ => setValue_blind _ _
    | exact Blind.bindLift (Like.assertF64 p) fun _ => Blind.bind (setValue_blind _ _) fun _ =>
        Blind.pure rfl
    | exact BlindO.ite Iff.rfl (Blind.bindLift (Like.asHandle p) fun _ => setValue_blind _ _) trivial
    | (refine Blind.bindLift (Like.assertI32 p) fun _ => Blind.pure ?_
       generalize hb : (_ && _) = b
       generalize hb' : (_ && _) = b'
       obtain rfl : b = b' := hb.symm.trans hb'
       cases b <;> rfl)

theorem sections_blind (p : CodePair) (w : OWork) :
    BlindO (w.sections p) (w.strip.sections p.strip) :=
  BlindO.ite Iff.rfl (Blind.bindId (Blind.withFuel sectionTypeReadAll_blind) fun _ =>
    Blind.pure rfl) trivial

theorem editLast_blind (w : OWork) (f : Point → Point) :
    Like OWork.strip (w.editLast f) (w.strip.editLast f) := by
  unfold OWork.editLast
  change Like OWork.strip _ (match w.extra.points.getLast? with
    | none => _
    | some p => _)
  cases w.extra.points.getLast? <;> exact rfl

theorem matrixValue_strip (w : OWork) (f : F64) :
    w.strip.matrixValue f = (w.matrixValue f).strip := by
  unfold OWork.matrixValue
  rw [show w.strip.matrix = w.matrix from rfl, show w.strip.gotInverse = w.gotInverse from rfl]
  cases Matrix.from4x3 (w.matrix ++ [f]) with
  | none => rfl
  | some m => cases w.gotInverse <;> rfl

theorem spatial_blind (m : OMode) (p : CodePair) (w : OWork) :
    BlindO (w.spatial m p) (w.strip.spatial m p.strip) :=
  BlindO.ite Iff.rfl (Blind.bindLift (Like.assertF64 p) fun _ => Blind.pure rfl) <|
  BlindO.ite Iff.rfl (Blind.lift (Like.bind (Like.assertF64 p) fun _ => editLast_blind _ _)) <|
  BlindO.ite Iff.rfl (Blind.lift (Like.bind (Like.assertF64 p) fun _ => editLast_blind _ _)) <|
  BlindO.ite Iff.rfl (Blind.bindLift (Like.assertF64 p) fun _ => Blind.pure (matrixValue_strip _ _))
    trivial

theorem sunStudy_blind (m : OMode) (p : CodePair) (w : OWork) :
    BlindO (w.sunStudy m p) (w.strip.sunStudy m p.strip) := by
  unfold OWork.sunStudy
  refine BlindO.ite Iff.rfl ?_ (BlindO.ite Iff.rfl
    (Blind.bindLift (Like.assertI16 p) fun _ => Blind.pure rfl) trivial)
  rw [show w.strip.day = w.day from rfl]
  cases w.day with
  | none => exact Blind.bindLift (Like.assertI32 p) fun _ => Blind.pure rfl
  | some jd =>
    exact Blind.bindLift Like.rfl' fun _ => Blind.bindLift (Like.assertI32 p) fun _ =>
      Blind.bindLift Like.rfl' fun _ => Blind.pure rfl

theorem cells_blind (p : CodePair) (w : OWork) :
    BlindO (w.cells p) (w.strip.cells p.strip) :=
  BlindO.ite Iff.rfl (Blind.bindBack p (Blind.bindId (Blind.withFuel fun k => cellStyle_blind k _ _)
    fun _ => Blind.pure rfl)) trivial

theorem xRecord_blind (m : OMode) (p : CodePair) (w : OWork) :
    BlindO (w.xRecord m p) (w.strip.xRecord m p.strip) :=
  BlindO.ite Iff.rfl (Blind.pure (by simp [OWork.strip, OExtra.strip])) trivial

theorem odd_blind (k : OName) (m : OMode) (p : CodePair) (w : OWork) :
    BlindO (k.odd m p w) (k.odd m p.strip w.strip) := by
  cases k
  case dictionary => exact dictionary_blind p w
  case dictionaryWithDefault => exact dictionary_blind p w
  case dataTable => exact dataTable_blind p w
  case sectionSettings => exact sections_blind p w
  case spatialFilter => exact spatial_blind m p w
  case sunStudy => exact sunStudy_blind m p w
  case tableStyle => exact cells_blind p w
  case xRecordObject => exact xRecord_blind m p w
  all_goals exact trivial

theorem onext_blind (k : OName) (m : OMode) (p : CodePair) :
    k.kind.next m p.strip = k.kind.next m p := by
  cases k <;> rfl

/-- The state of a reader without places. -/
def OState.strip {k : OName} (st : OState k) : OState k := (st.1, st.2.1.strip, st.2.2.strip)

theorem OName.step_blind (k : OName) (p : CodePair) (st : OState k) :
    Blind OState.strip (k.step p st) (k.step p.strip st.strip) := by
  have h := odd_blind k st.1 p st.2.2
  unfold OName.step
  rw [show st.strip.1 = st.1 from rfl, show st.strip.2.2 = st.2.2.strip from rfl, onext_blind]
  generalize k.odd st.1 p st.2.2 = x at h ⊢
  generalize k.odd st.1 p.strip st.2.2.strip = y at h ⊢
  cases x <;> cases y
  · exact Blind.bind (entryApply_blind _ (k.arms_blind _) p _) fun _ => Blind.pure rfl
  · exact h.elim
  · exact h.elim
  · exact Blind.bind (show Blind OWork.strip _ _ from h) fun _ => Blind.pure rfl

theorem post_strip (o : Object) : Object.post o.strip = (Object.post o).strip := by
  rcases o with ⟨k, e, x⟩
  cases k <;> rfl

theorem readObject_blind (fuel : Nat) :
    Blind (Option.map Object.strip) (readObject fuel) (readObject fuel) := by
  induction fuel with
  | zero => exact Blind.fail rfl
  | succ fuel ih =>
    unfold readObject
    refine Blind.bindNext fun p => Blind.ite Iff.rfl (fun _ => ?_) fun _ => Blind.fail rfl
    refine Blind.bindLift (Like.assertString p) fun s => Blind.ite Iff.rfl
      (fun _ => Blind.bindBack p (Blind.pure rfl)) fun _ => ?_
    cases OName.ofType s with
    | none => exact Blind.bindId swallowItem_blind fun _ => ih
    | some k =>
      refine Blind.bind (item_blind _ k.step_blind (OMode.start, Entry.dflt k.decls, {})) fun st =>
        Blind.pure ?_
      exact congrArg some (post_strip ⟨k, st.2.1, st.2.2.extra⟩)

theorem nextObject_blind : Blind (Option.map Object.strip) nextObject nextObject := by
  intro s
  have h := Blind.withFuel readObject_blind s
  unfold nextObject
  generalize Rd.withFuel readObject s = a at h ⊢
  generalize Rd.withFuel readObject (Stream.strip s) = b at h ⊢
  obtain ⟨x, t⟩ := a
  obtain ⟨y, t'⟩ := b
  obtain ⟨h1, h2⟩ := h
  dsimp only at h1 h2 ⊢
  cases x with
  | ok a =>
    cases y with
    | ok b => exact ⟨h1, h2⟩
    | error e => exact h1.elim
  | error e =>
    cases y with
    | ok b => exact h1.elim
    | error e' =>
      replace h1 : e'.sort = e.sort := h1
      cases e <;> cases e' <;> first
        | exact ⟨rfl, h2⟩
        | cases h1

theorem collectObjects_blind (fuel : Nat) :
    Blind (List.map Object.strip) (collectObjects fuel) (collectObjects fuel) := by
  induction fuel with
  | zero => exact Blind.fail rfl
  | succ fuel ih =>
    unfold collectObjects
    refine Blind.bind nextObject_blind fun a => ?_
    cases a with
    | none => exact Blind.pure rfl
    | some o => exact Blind.bind ih fun _ => Blind.pure rfl

theorem readObjects_blind : Blind (List.map Object.strip) readObjects readObjects :=
  Blind.withFuel collectObjects_blind

end Dxf
