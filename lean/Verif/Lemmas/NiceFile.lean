import Verif.Lemmas.NiceItems
import Verif.Model.File

/-! The readers of objects, of sections and of whole files leave a tail of the stream. -/

namespace Dxf

/-! ### Adding to a drawing -/

/-- The only error is a panic. -/
def OnlyPanics {α : Type} (x : Except DxfErr α) : Prop := ∀ e, x = .error e → e = .panic

namespace OnlyPanics

variable {α β : Type}

theorem calm {x : Except DxfErr α} (h : OnlyPanics x) : Calm x := fun hc => by
  have := h _ hc
  cases this

theorem ok {a : α} : OnlyPanics (.ok a : Except DxfErr α) := fun e h => by cases h
theorem ret {a : α} : OnlyPanics (pure a : Except DxfErr α) := fun e h => by cases h
theorem panic : OnlyPanics (.error .panic : Except DxfErr α) := fun e h => by cases h; rfl

theorem bind {x : Except DxfErr α} {f : α → Except DxfErr β} (hx : OnlyPanics x)
    (hf : ∀ a, OnlyPanics (f a)) : OnlyPanics (x >>= f) := by
  cases x with
  | ok a => exact hf a
  | error e => intro e' h; cases h; exact hx e rfl

theorem ite {c : Prop} [Decidable c] {a b : Except DxfErr α} (ha : c → OnlyPanics a)
    (hb : ¬ c → OnlyPanics b) : OnlyPanics (if c then a else b) := by
  by_cases h : c
  · rw [if_pos h]; exact ha h
  · rw [if_neg h]; exact hb h

theorem foldlM {f : β → α → Except DxfErr β} (hf : ∀ b a, OnlyPanics (f b a)) (l : List α) :
    ∀ b, OnlyPanics (l.foldlM f b) := by
  induction l with
  | nil => exact fun b => ret
  | cons x l ih => exact fun b => bind (hf b x) ih

end OnlyPanics

namespace Drawing

variable {Img : Type}

open OnlyPanics

theorem nextHandle_panics (d : Drawing Img) : OnlyPanics d.nextHandle :=
  .ite (fun _ => .panic) fun _ => .ok

theorem ensurePlain_panics (d : Drawing Img) (t : TName) (n : Str) :
    OnlyPanics (d.ensurePlain t n) :=
  .ite (fun _ => .ok) fun _ => .bind (nextHandle_panics _) fun _ => .ret

theorem addNoHandle_panics (d : Drawing Img) (t : TName) (x : t.Item) :
    OnlyPanics (d.addNoHandle t x) := by
  cases t
  case layer => exact .bind (ensurePlain_panics _ _ _) fun _ => .ret
  all_goals exact .ok

theorem add_panics (d : Drawing Img) (t : TName) (x : t.Item) : OnlyPanics (d.add t x) :=
  .bind (nextHandle_panics _) fun _ => .bind (addNoHandle_panics _ _ _) fun _ => .ret

theorem ensure_panics (d : Drawing Img) (t : TName) (n : Str) : OnlyPanics (d.ensure t n) :=
  .ite (fun _ => .ok) fun _ => .bind (add_panics _ _ _) fun _ => .ret

theorem ensureAll_panics (d : Drawing Img) (t : TName) (l : List Str) :
    OnlyPanics (d.ensureAll t l) :=
  OnlyPanics.foldlM (fun _ _ => ensure_panics _ _ _) l d

theorem addObjectNoHandle_panics (d : Drawing Img) (o : Object) :
    OnlyPanics (d.addObjectNoHandle o) :=
  .bind (ensureAll_panics _ _ _) fun _ => .bind (ensureAll_panics _ _ _) fun _ =>
    .bind (ensureAll_panics _ _ _) fun _ => .bind (ensureAll_panics _ _ _) fun _ => .ret

theorem addObject_panics (d : Drawing Img) (o : Object) : OnlyPanics (d.addObject o) :=
  .bind (nextHandle_panics _) fun _ => .bind (addObjectNoHandle_panics _ _) fun _ => .ret

theorem ensureMLineStyle_panics (d : Drawing Img) (n : Option Str) :
    OnlyPanics (d.ensureMLineStyle n) := by
  cases n with
  | none => exact .ok
  | some n => exact .ite (fun _ => .ok) fun _ => .bind (addObject_panics _ _) fun _ => .ret

theorem addEntityNoHandle_panics (d : Drawing Img) (e : Entity) :
    OnlyPanics (d.addEntityNoHandle e) :=
  .bind (ensureMLineStyle_panics _ _) fun _ => .bind (ensureAll_panics _ _ _) fun _ =>
    .bind (ensure_panics _ _ _) fun _ => .bind (ensure_panics _ _ _) fun _ =>
      .bind (ensureAll_panics _ _ _) fun _ => .ret

theorem childHandle_panics (d : Drawing Img) (h : Handle) : OnlyPanics (d.childHandle h) :=
  .ite (fun _ => nextHandle_panics _) fun _ => .ok

theorem attHandles_panics (l : List Att) : ∀ d : Drawing Img, OnlyPanics (attHandles l d) := by
  induction l with
  | nil => exact fun _ => .ok
  | cons a l ih => exact fun _ => .bind (childHandle_panics _ _) fun _ => .bind (ih _) fun _ => .ret

theorem vertHandles_panics (l : List Vert) : ∀ d : Drawing Img, OnlyPanics (vertHandles l d) := by
  induction l with
  | nil => exact fun _ => .ok
  | cons a l ih => exact fun _ => .bind (childHandle_panics _ _) fun _ => .bind (ih _) fun _ => .ret

theorem childHandles_panics (d : Drawing Img) (e : Entity) : OnlyPanics (d.childHandles e) :=
  .ite (fun _ => .bind (nextHandle_panics _) fun _ => .bind (attHandles_panics _ _) fun _ => .ret)
    fun _ => .ite (fun _ => .bind (nextHandle_panics _) fun _ =>
      .bind (vertHandles_panics _ _) fun _ => .ret) fun _ => .ok

theorem addEntity_panics (d : Drawing Img) (e : Entity) : OnlyPanics (d.addEntity e) :=
  .bind (nextHandle_panics _) fun _ => .bind (childHandles_panics _ _) fun _ =>
    .bind (addEntityNoHandle_panics _ _) fun _ => .ret

theorem entityHandles_panics (l : List Entity) : ∀ d : Drawing Img,
    OnlyPanics (entityHandles l d) := by
  induction l with
  | nil => exact fun _ => .ok
  | cons a l ih => exact fun _ => .bind (nextHandle_panics _) fun _ => .bind (ih _) fun _ => .ret

theorem addBlockNoHandle_panics (d : Drawing Img) (b : Block) : OnlyPanics (d.addBlockNoHandle b) :=
  .bind (ensureAll_panics _ _ _) fun _ => .bind (ensureAll_panics _ _ _) fun _ =>
    .bind (add_panics _ _ _) fun _ => .bind (entityHandles_panics _ _) fun _ => .ret

theorem addBlock_panics (d : Drawing Img) (b : Block) : OnlyPanics (d.addBlock b) :=
  .bind (nextHandle_panics _) fun _ => addBlockNoHandle_panics _ _

theorem addRead_panics (t : TName) (d : Drawing Img) (x : t.Item) : OnlyPanics (addRead t d x) :=
  .ite (fun _ => .bind (add_panics _ _ _) fun _ => .ret) fun _ => addNoHandle_panics _ _ _

theorem addReadBlock_panics (d : Drawing Img) (b : Block) : OnlyPanics (d.addReadBlock b) := by
  unfold addReadBlock
  by_cases h : b.handle = 0#64
  · simp only [if_pos h]
    exact .bind (addBlock_panics _ _) fun _ => .ret
  · simp only [if_neg h]
    exact .bind (addBlockNoHandle_panics _ _) fun _ => .ret

theorem addReadEntity_panics (d : Drawing Img) (e : Entity) : OnlyPanics (d.addReadEntity e) :=
  .ite (fun _ => .bind (addEntity_panics _ _) fun _ => .ret) fun _ => addEntityNoHandle_panics _ _

theorem addReadObject_panics (d : Drawing Img) (o : Object) : OnlyPanics (d.addReadObject o) :=
  .ite (fun _ => .bind (addObject_panics _ _) fun _ => .ret) fun _ => addObjectNoHandle_panics _ _

end Drawing

/-! ### Objects -/

theorem geometryLoop_nice (t : Bool) (fuel : Nat) : ∀ n g, (t = true → n < fuel) →
    Nice t n (Geometry.loop fuel g) := by
  have hc : ∀ a ∈ geometryArms, a.act.Calm := calm_of_on _ (by decide +kernel)
  induction fuel with
  | zero => exact fun n _ h => Nice.fail fun ht => absurd (h ht) (by omega)
  | succ fuel ih =>
    intro n g h
    unfold Geometry.loop
    refine Nice.next? .pure fun p => NiceP.ite (fun _ => .pure) fun _ => ?_
    cases findArm geometryArms p.code with
    | none => exact NiceP.bindBack .pure
    | some a =>
      exact NiceP.bindLift (fun _ => applyPair_calm _ hc _ _) fun g' => NiceP.drop fun _ =>
        ih _ _ fun ht => by have := h ht; omega

theorem geometryRead_nice (t : Bool) (n : Nat) : Nice t n Geometry.read := by
  unfold Geometry.read
  refine Nice.next? .pure fun p => NiceP.bindBack (Nice.ite (fun _ => ?_) fun _ => .pure)
  exact Nice.bind (Nice.withFuel fun _ => geometryLoop_nice t _ _ _ fun _ => by omega) fun _ => .pure

theorem geometryReadAll_nice (fuel : Nat) : ∀ n, Nice false n (Geometry.readAll fuel) := by
  induction fuel with
  | zero => exact fun n => Nice.fail (by simp)
  | succ fuel ih =>
    intro n
    unfold Geometry.readAll
    refine Nice.bind (geometryRead_nice _ _) fun a => ?_
    cases a with
    | none => exact .pure
    | some g => exact Nice.bind (ih _) fun _ => .pure

theorem sectionTypeLoop_nice (fuel : Nat) : ∀ n s, Nice false n (SectionType.loop fuel s) := by
  induction fuel with
  | zero => exact fun n _ => Nice.fail (by simp)
  | succ fuel ih =>
    intro n s
    have hf : ∀ {α : Type} {x : Except DxfErr α}, false = true → Calm x := by simp
    have ih' : ∀ {p : CodePair} s, NiceP false n p (SectionType.loop fuel s) := fun s =>
      NiceP.drop fun _ => ih _ s
    unfold SectionType.loop
    refine Nice.next? .pure fun p => ?_
    repeat' refine NiceP.ite (fun _ => ?_) fun _ => ?_
    all_goals first
      | exact NiceP.bindBack .pure
      | exact NiceP.bindLift hf fun _ => ih' _
      | exact ih' _
      | exact NiceP.bind (fun _ => Nice.withFuel fun _ => geometryReadAll_nice _ _) fun _ _ => ih _ _

theorem sectionTypeRead_nice (n : Nat) : Nice false n SectionType.read := by
  unfold SectionType.read
  refine Nice.next? .pure fun p => NiceP.bindBack (Nice.ite (fun _ => .pure) fun _ => ?_)
  exact Nice.bind (Nice.withFuel fun _ => sectionTypeLoop_nice _ _ _) fun _ => .pure

theorem sectionTypeReadAll_nice (fuel : Nat) : ∀ n, Nice false n (SectionType.readAll fuel) := by
  induction fuel with
  | zero => exact fun n => Nice.fail (by simp)
  | succ fuel ih =>
    intro n
    unfold SectionType.readAll
    refine Nice.bind (sectionTypeRead_nice _) fun a => ?_
    cases a with
    | none => exact .pure
    | some g => exact Nice.bind (ih _) fun _ => .pure

theorem cellStyle_nice (t : Bool) (fuel : Nat) : ∀ n b c, (t = true → n < fuel) →
    Nice t n (CellStyle.read fuel b c) := by
  have hc : ∀ a ∈ cellArms, a.act.Calm := calm_of_on _ (by decide +kernel)
  induction fuel with
  | zero => exact fun n _ _ h => Nice.fail fun ht => absurd (h ht) (by omega)
  | succ fuel ih =>
    intro n b c h
    have ih' : ∀ {p : CodePair} b c, NiceP t n p (CellStyle.read fuel b c) := fun b c =>
      NiceP.drop fun _ => ih _ _ _ fun ht => by have := h ht; omega
    unfold CellStyle.read
    refine Nice.next? .pure fun p => NiceP.ite (fun _ => .pure) fun _ => NiceP.ite (fun _ => ?_)
      fun _ => ?_
    · exact NiceP.ite (fun _ => NiceP.bindBack .pure) fun _ =>
        NiceP.bindLift (fun _ => Calm.assertString) fun _ => ih' _ _
    · cases findArm cellArms p.code with
      | none => exact NiceP.bindBack .pure
      | some a => exact NiceP.bindLift (fun _ => applyPair_calm _ hc _ _) fun _ => ih' _ _

theorem tableSetValue_panics (d : DataTable) (r c : Nat) (v : DataTableValue) :
    OnlyPanics (d.setValue r c v) := by
  unfold DataTable.setValue
  refine .ite (fun _ => ?_) fun _ => .ok
  split
  · exact .panic
  · exact .ite (fun _ => .ok) fun _ => .panic

theorem setValue_nice (t : Bool) (n : Nat) (w : OWork) (x : DataTableValue) :
    Nice t n (w.setValue x) :=
  Nice.bind (Nice.lift fun _ => (tableSetValue_panics _ _ _ _).calm) fun _ => .pure

/-- A cell style starts with the pair that was put back. -/
theorem cells_run {p : CodePair} (hp : p.code = 7) (s : Stream) :
    (Rd.putBack p >>= fun _ => Rd.withFuel fun fuel => CellStyle.read fuel false (Rec.dflt _)) s =
    (Rd.lift p.assertString >>= fun x =>
      CellStyle.read (s.length + 1) true (Rec.set (Rec.dflt cellDecls) 0 (x : Str))) s := by
  rw [Rd.run_bind, Rd.run_putBack]
  change CellStyle.read (s.length + 1 + 1) false (Rec.dflt _) (some (.ok p) :: s) = _
  unfold CellStyle.read
  refine (Rd.bind_ok (Rd.next?_cons (by simp [hp]) _)).trans ?_
  change (if p.code = 0 then _ else if p.code = 7 then (if false = true then _ else _) else _ :
    Rd CellStyle) s = _
  rw [if_neg (by simp [hp]), if_pos hp]
  rfl

/-- What an object reader does with a pair leaves a tail of the stream after it. -/
theorem odd_nice (k : OName) {t : Bool} (hk : t = true → k ≠ .sectionSettings) {n : Nat}
    (m : OMode) (p : CodePair) (w : OWork) (act : Rd OWork) (h : k.odd m p w = some act) :
    Nice t n act := by
  have l : ∀ {α : Type} {x : Except DxfErr α} {f : α → Rd OWork}, (t = true → Calm x) →
      (∀ a, Nice t n (f a)) → Nice t n (Rd.lift x >>= f) := fun h h' =>
    Nice.bind (Nice.lift h) h'
  have dict : ∀ act, w.dictionary p = some act → Nice t n act := by
    intro act h
    unfold OWork.dictionary at h
    split at h
    · cases h
      exact l (fun _ => Calm.assertString) fun _ => .pure
    · split at h
      · cases h
        exact l (fun _ => (GoodE.asHandle p).calm) fun _ => .pure
      · cases h
  cases k
  case dictionary => exact dict act h
  case dictionaryWithDefault => exact dict act h
  case dataTable =>
    replace h : w.dataTable p = some act := h
    unfold OWork.dataTable at h
    dsimp only at h
    split at h
    all_goals first
      | (cases h
         first
          | exact l (fun _ => Calm.assertString) fun _ => .pure
          | exact l (fun _ => Calm.assertI32) fun _ => .pure
          | exact l (fun _ => Calm.assertF64) fun _ => .pure
          | exact l (fun _ => Calm.assertString) fun _ => setValue_nice _ _ _ _
          | exact l (fun _ => Calm.assertI32) fun _ => setValue_nice _ _ _ _
          | exact l (fun _ => Calm.assertI16) fun _ => setValue_nice _ _ _ _
          | exact l (fun _ => Calm.assertF64) fun _ => setValue_nice _ _ _ _
          | exact l (fun _ => Calm.assertF64) fun _ => Nice.bind (setValue_nice _ _ _ _) fun _ => .pure)
      | (split at h
         · cases h
           exact l (fun _ => (GoodE.asHandle p).calm) fun _ => setValue_nice _ _ _ _
         · cases h)
  case sectionSettings =>
    cases t
    · replace h : w.sections p = some act := h
      unfold OWork.sections at h
      split at h
      · cases h
        exact Nice.bind (Nice.withFuel fun _ => sectionTypeReadAll_nice _ _)
          fun _ => .pure
      · cases h
    · exact absurd rfl (hk rfl)
  case spatialFilter =>
    replace h : w.spatial m p = some act := h
    have he : ∀ f, Calm (w.editLast f) := by
      intro f
      unfold OWork.editLast
      split <;> simp [Calm]
    unfold OWork.spatial at h
    split at h
    · cases h
      exact l (fun _ => Calm.assertF64) fun _ => .pure
    · split at h
      · cases h
        exact Nice.lift fun _ => Calm.bind Calm.assertF64 fun _ => he _
      · split at h
        · cases h
          exact Nice.lift fun _ => Calm.bind Calm.assertF64 fun _ => he _
        · split at h
          · cases h
            exact l (fun _ => Calm.assertF64) fun _ => .pure
          · cases h
  case sunStudy =>
    replace h : w.sunStudy m p = some act := h
    unfold OWork.sunStudy at h
    split at h
    · cases h
      cases w.day with
      | none => exact l (fun _ => Calm.assertI32) fun _ => .pure
      | some jd =>
        refine l (fun _ => date_calm _) fun d => l (fun _ => Calm.assertI32)
          fun x => l (fun _ => ?_) fun _ => .pure
        unfold OWork.addSeconds
        split <;> simp [Calm]
    · split at h
      · cases h
        exact l (fun _ => Calm.assertI16) fun _ => .pure
      · cases h
  case tableStyle =>
    replace h : w.cells p = some act := h
    unfold OWork.cells at h
    split at h
    · rename_i hp
      cases h
      have hr : Nice t n (Rd.putBack p >>= fun _ =>
          Rd.withFuel fun fuel => CellStyle.read fuel false (Rec.dflt _)) := by
        intro s hs hn
        rw [cells_run hp]
        exact Nice.bind (Nice.lift fun _ => Calm.assertString)
          (fun _ => cellStyle_nice t _ s.length _ _ fun _ => by omega) s (Nat.le_refl _) hn
      intro s hs hn
      exact (Nice.bind hr fun _ => .pure) s hs hn
    · cases h
  case xRecordObject =>
    replace h : w.xRecord m p = some act := h
    unfold OWork.xRecord at h
    split at h
    · cases h
      exact .pure
    · cases h
  all_goals exact absurd h (by simp [OName.odd])

theorem OName.step_nice (k : OName) {t : Bool} (hk : t = true → k ≠ .sectionSettings) {n : Nat}
    (p : CodePair) (st : OState k) : Nice t n (k.step p st) := by
  unfold OName.step
  cases h : k.odd st.1 p st.2.2 with
  | some act => exact Nice.bind (odd_nice k hk _ _ _ _ h) fun _ => .pure
  | none => exact Nice.bind (entryApply_nice _ (fun _ => k.arms_calm _) _ _) fun _ => .pure

theorem sectionSettings_name (s : Str) (h : OName.ofType s = some .sectionSettings) :
    s = str!"SECTIONSETTINGS" := by
  have h := List.find?_some h
  have h : s ∈ OName.sectionSettings.kind.names := by simpa using h
  revert h
  have : OName.sectionSettings.kind.names = [str!"SECTIONSETTINGS"] := by decide +kernel
  rw [this]
  simp

theorem readObject_nice (t : Bool) (fuel : Nat) : ∀ n, (t = true → n < fuel) →
    NiceC t n slotSize (readObject fuel) := by
  induction fuel with
  | zero => exact fun n h => NiceC.fail fun ht => absurd (h ht) (by omega)
  | succ fuel ih =>
    intro n h
    unfold readObject
    refine NicePC.next fun p hp => NicePC.ite (fun h0 => ?_) fun _ => NicePC.fail fun _ => by simp
    refine NicePC.bindLift' (fun _ => Calm.assertString) fun s hv => ?_
    refine NicePC.ite (fun _ => NicePC.back rfl) fun _ => ?_
    cases hk : OName.ofType s with
    | none =>
      exact NicePC.drop fun hn => NiceC.bindC (NiceC.of (swallowItem_nice t _)) fun _ _ =>
        (ih _ fun ht => by have := h ht; omega).mono fun a => by cases a <;> simp [slotSize]
    | some k =>
      have hne : t = true → k ≠ .sectionSettings := by
        rintro ht rfl
        refine hp ht (.inl ⟨h0, ?_⟩)
        have hs : s = str!"SECTIONSETTINGS" := sectionSettings_name s hk
        unfold CodePair.assertString at hv
        split at hv
        · cases hv
          simp_all
        · cases hv
      exact NicePC.drop fun hn => NiceC.bindC
        (NiceC.of (item_nice _ (fun _ => k.step_nice hne) _)) fun st _ => NiceC.pure rfl

theorem nextObject_nice (t : Bool) (n : Nat) : NiceC t n slotSize nextObject := by
  have hr : NiceC t n slotSize (Rd.withFuel readObject) := NiceC.withFuel fun k =>
    readObject_nice t _ _ fun _ => by omega
  have key : ∀ s, (nextObject s).2 = (Rd.withFuel readObject s).2 ∧
      ((nextObject s).1 = .error .outOfFuel → (Rd.withFuel readObject s).1 = .error .outOfFuel) ∧
      ∀ a, (nextObject s).1 = .ok a → a = none ∨ (Rd.withFuel readObject s).1 = .ok a := by
    intro s
    unfold nextObject
    rcases Rd.withFuel readObject s with ⟨x, s'⟩
    rcases x with e | a
    · cases e <;> simp [eq_comm]
    · simp
  refine ⟨fun s hs hn => ⟨?_, fun ht hc => ?_⟩, fun s hs hn a ha => ?_⟩
  · rw [(key s).1]
    exact (hr.1 s hs hn).1
  · exact (hr.1 s hs hn).2 ht ((key s).2.1 hc)
  · rw [(key s).1]
    rcases (key s).2.2 a ha with rfl | h
    · exact (hr.1 s hs hn).1.length_le
    · exact hr.2 s hs hn a h

theorem collectObjects_nice (t : Bool) (fuel : Nat) : ∀ n, (t = true → n < fuel) →
    Nice t n (collectObjects fuel) := by
  induction fuel with
  | zero => exact fun n h => Nice.fail fun ht => absurd (h ht) (by omega)
  | succ fuel ih =>
    intro n h
    unfold collectObjects
    refine NiceC.bind (nextObject_nice t n) fun a ha => ?_
    cases a with
    | none => exact .pure
    | some o =>
      refine Nice.bind (ih _ fun ht => ?_) fun _ => .pure
      have := h ht
      simp only [slotSize_some] at ha ⊢
      omega

theorem readObjects_nice (t : Bool) (n : Nat) : Nice t n readObjects :=
  Nice.withFuel fun _ => collectObjects_nice t _ _ fun _ => by omega

/-! ### Header, classes, tables, thumbnail -/

theorem headerVars_calm : ∀ h ∈ Header.vars, ∀ a ∈ h.arms, a.act.Calm := by
  have hc : (Header.vars.all fun h => h.arms.all fun a =>
      match a.act with | .on _ _ => true | .custom _ _ => false) = true := by decide +kernel
  intro h hm
  intro a ha
  have := List.all_eq_true.mp (List.all_eq_true.mp hc h hm) a ha
  cases hact : a.act with
  | on i c => trivial
  | custom l f => rw [hact] at this; simp at this

theorem setHeaderValue_calm (name : Str) (p : CodePair) (r : Header) :
    Calm (setHeaderValue Header.vars name p r) := by
  unfold setHeaderValue findVar
  cases h : Header.vars.find? fun h => decide (h.name = name) with
  | none => exact Calm.ok
  | some x =>
    dsimp only
    cases ha : findArm x.arms p.code with
    | none => dsimp only; split <;> simp [Calm]
    | some a =>
      exact act_calm _ (headerVars_calm x (List.mem_of_find?_eq_some h) a
        (List.mem_of_find?_eq_some ha)) _ _

theorem headerValues_nice (t : Bool) (name : Str) (fuel : Nat) : ∀ n r, (t = true → n < fuel) →
    Nice t n (headerValues Header.vars name fuel r) := by
  induction fuel with
  | zero => exact fun n _ h => Nice.fail fun ht => absurd (h ht) (by omega)
  | succ fuel ih =>
    intro n r h
    unfold headerValues
    refine Nice.next? .pure fun p => NiceP.ite (fun _ => NiceP.bindBack .pure) fun _ => ?_
    exact NiceP.bindLift (fun _ => setHeaderValue_calm _ _ _) fun _ => NiceP.drop fun _ =>
      ih _ _ fun ht => by have := h ht; omega

theorem headerLoop_nice (t : Bool) (fuel : Nat) : ∀ n r, (t = true → n < fuel) →
    Nice t n (headerLoop Header.vars fuel r) := by
  induction fuel with
  | zero => exact fun n _ h => Nice.fail fun ht => absurd (h ht) (by omega)
  | succ fuel ih =>
    intro n r h
    unfold headerLoop
    refine Nice.next? .pure fun p => NiceP.ite (fun _ => NiceP.bindBack .pure) fun _ =>
      NiceP.ite (fun _ => ?_) fun _ => NiceP.fail fun _ => by simp
    exact NiceP.bindLift (fun _ => Calm.assertString) fun _ => NiceP.bind (fun _ =>
      Nice.withFuel fun _ => headerValues_nice t _ _ _ _ fun _ => by omega) fun _ _ =>
        ih _ _ fun ht => by have := h ht; omega

theorem header_nice (t : Bool) (n : Nat) (h0 : Header) : Nice t n (Header.read h0) :=
  Nice.withFuel fun _ => headerLoop_nice t _ _ _ fun _ => by omega

theorem classApply_calm (v : Version) (p : CodePair) (c : Class) : Calm (Class.apply v p c) := by
  unfold Class.apply
  repeat' split
  all_goals first
    | exact Calm.ok
    | exact Calm.map Calm.assertString
    | exact Calm.map Calm.assertI32
    | exact Calm.map Calm.assertI16

theorem classRead_nice (t : Bool) (n : Nat) (v : Version) (s : Str) : Nice t n (Class.read v s) :=
  item_nice _ (fun _ _ _ => Nice.lift fun _ => classApply_calm _ _ _) _

theorem classReadAll_nice (t : Bool) (v : Version) (fuel : Nat) : ∀ n, (t = true → n < fuel) →
    Nice t n (Class.readAll v fuel) := by
  induction fuel with
  | zero => exact fun n h => Nice.fail fun ht => absurd (h ht) (by omega)
  | succ fuel ih =>
    intro n h
    have ih' : ∀ m, m + 1 ≤ n → Nice t m (Class.readAll v fuel) := fun m hm =>
      ih m fun ht => by have := h ht; omega
    unfold Class.readAll
    refine Nice.next fun p => NiceP.ite (fun _ => ?_) fun _ => NiceP.drop fun _ => ih' _ (by omega)
    refine NiceP.bindLift (fun _ => Calm.assertString) fun _ => NiceP.ite
      (fun _ => NiceP.bindBack .pure) fun _ => NiceP.bind (fun _ => classRead_nice _ _ _ _)
        fun _ _ => Nice.bind (ih' _ (by omega)) fun _ => .pure

theorem tableArms_calm (t : TName) : ∀ a ∈ t.kind.arms, a.act.Calm := by
  cases t
  case layer =>
    have hd : Tables.readLayerColor.Calm := by
      intro r p
      have h := Calm.assertI16 (p := p)
      dsimp only
      generalize p.assertI16 = x at h ⊢
      cases x with
      | ok v => dsimp only; split <;> simp [Calm]
      | error e => exact fun hc => h (by cases hc; rfl)
    simp only [TName.kind, Tables.layer, Tables.layerArms]
    repeat' first
      | exact fun _ h => absurd h List.not_mem_nil
      | (refine List.forall_mem_cons.mpr ⟨?_, ?_⟩)
      | exact trivial
      | exact hd
  all_goals exact calm_of_on _ (by decide +kernel)

theorem tableRead_nice (t : Bool) (T : TName) (fuel : Nat) : ∀ n, (t = true → n < fuel) →
    Nice t n (T.kind.read fuel) := by
  induction fuel with
  | zero => exact fun n h => Nice.fail fun ht => absurd (h ht) (by omega)
  | succ fuel ih =>
    intro n h
    have ih' : ∀ m, m + 1 ≤ n → Nice t m (T.kind.read fuel) := fun m hm =>
      ih m fun ht => by have := h ht; omega
    unfold TableKind.read
    refine Nice.next fun p => NiceP.ite (fun _ => ?_) fun _ => NiceP.drop fun _ => ih' _ (by omega)
    refine NiceP.bindLift (fun _ => Calm.assertString) fun _ => NiceP.ite
      (fun _ => NiceP.bindBack .pure) fun _ => NiceP.bind (fun _ => item_nice _
        (fun _ _ _ => entryApply_nice _ (fun _ => tableArms_calm T) _ _) _)
        fun _ _ => Nice.bind (ih' _ (by omega)) fun _ => .pure

theorem readChunks_nice (t : Bool) (fuel : Nat) : ∀ n, (t = true → n < fuel) →
    Nice t n (Thumbnail.readChunks fuel) := by
  induction fuel with
  | zero => exact fun n h => Nice.fail fun ht => absurd (h ht) (by omega)
  | succ fuel ih =>
    intro n h
    unfold Thumbnail.readChunks
    refine Nice.next? .pure fun p => NiceP.ite (fun _ => NiceP.bindBack .pure) fun _ =>
      NiceP.ite (fun _ => ?_) fun _ => NiceP.fail fun _ => by simp
    exact NiceP.bindLift (fun _ => Calm.assertBinary) fun _ => NiceP.bind (fun _ =>
      ih _ fun ht => by have := h ht; omega) fun _ _ => .pure

theorem readWord_calm (d : List Byte) (o : Nat) : Calm (Thumbnail.readWord d o) := by
  unfold Thumbnail.readWord
  split <;> simp [Calm]

theorem setWord_calm (d : List Byte) (o : Nat) (v : BitVec 32) : Calm (Thumbnail.setWord d o v) := by
  unfold Thumbnail.setWord
  split <;> simp [Calm]

theorem setOffset_calm (d : List Byte) : Calm (Thumbnail.setOffset d) := by
  unfold Thumbnail.setOffset
  refine Calm.bind (readWord_calm _ _) fun _ => ?_
  dsimp only
  split
  · refine Calm.bind (readWord_calm _ _) fun _ => ?_
    split
    · simp [Calm]
    · exact Calm.bind (setWord_calm _ _ _) fun _ => Calm.ok
  · exact Calm.ok

theorem readBytes_nice (t : Bool) (n : Nat) : Nice t n Thumbnail.readBytes := by
  unfold Thumbnail.readBytes
  refine Nice.next? .pure fun p => NiceP.ite (fun _ => NiceP.bindBack .pure) fun _ =>
    NiceP.ite (fun _ => ?_) fun _ => NiceP.fail fun _ => by simp
  exact NiceP.bindLift (fun _ => Calm.assertI32) fun _ => NiceP.bind (fun _ => Nice.withFuel
    fun _ => readChunks_nice t _ _ fun _ => by omega) fun _ _ =>
      Nice.bind (Nice.lift fun _ => setWord_calm _ _ _) fun _ => .pure

theorem thumbnail_nice {Img : Type} (t : Bool) (n : Nat) (codec : ImageCodec Img)
    (hc : t = true → ∀ b, Calm (codec.load b)) : Nice t n (Thumbnail.read codec) := by
  unfold Thumbnail.read
  refine Nice.bind (readBytes_nice t n) fun a => ?_
  cases a with
  | none => exact .pure
  | some d =>
    refine Nice.bind (Nice.lift fun _ => setOffset_calm _) fun b => ?_
    cases b with
    | none => exact .pure
    | some d => exact Nice.bind (Nice.lift fun ht => hc ht _) fun _ => .pure

/-! ### Sections -/

namespace Drawing

variable {Img : Type}

theorem expect_nice (t : Bool) (n : Nat) (mark : Str) : Nice t n (expect mark) := by
  unfold expect
  exact Nice.next fun p => NiceP.ite (fun _ => .pure) fun _ => NiceP.fail fun _ => by simp

theorem swallowTable_nice (t : Bool) (fuel : Nat) : ∀ n, (t = true → n < fuel) →
    Nice t n (swallowTable fuel) := by
  induction fuel with
  | zero => exact fun n h => Nice.fail fun ht => absurd (h ht) (by omega)
  | succ fuel ih =>
    intro n h
    have ih' : ∀ {p : CodePair}, NiceP t n p (swallowTable fuel) :=
      NiceP.drop fun _ => ih _ fun ht => by have := h ht; omega
    unfold swallowTable
    exact Nice.next fun p => NiceP.ite (fun _ => NiceP.bindLift (fun _ => Calm.assertString)
      fun _ => NiceP.ite (fun _ => .putBack) fun _ => ih') fun _ => ih'

theorem swallowSection_nice (t : Bool) (fuel : Nat) : ∀ n, (t = true → n < fuel) →
    Nice t n (swallowSection fuel) := by
  induction fuel with
  | zero => exact fun n h => Nice.fail fun ht => absurd (h ht) (by omega)
  | succ fuel ih =>
    intro n h
    have ih' : ∀ {p : CodePair}, NiceP t n p (swallowSection fuel) :=
      NiceP.drop fun _ => ih _ fun ht => by have := h ht; omega
    unfold swallowSection
    exact Nice.next? .pure fun p => NiceP.ite (fun _ => NiceP.bindLift (fun _ => Calm.assertString)
      fun _ => NiceP.ite (fun _ => .putBack) fun _ => ih') fun _ => ih'

theorem readTable_nice (t : Bool) (n : Nat) (d : Drawing Img) : Nice t n (readTable d) := by
  unfold readTable
  refine Nice.next fun p => NiceP.ite (fun _ => NiceP.fail fun _ => by simp) fun _ =>
    NiceP.bindLift (fun _ => Calm.assertString) fun s => NiceP.drop fun _ => ?_
  cases tableOf s with
  | none =>
    exact Nice.bind (Nice.withFuel fun _ => swallowTable_nice t _ _ fun _ => by omega)
      fun _ => Nice.bind (expect_nice _ _ _) fun _ => .pure
  | some T =>
    exact Nice.bind (Nice.withFuel fun _ => tableRead_nice t T _ _ fun _ => by omega)
      fun _ => Nice.bind (Nice.lift fun _ => (OnlyPanics.foldlM (addRead_panics T) _ _).calm)
        fun _ => Nice.bind (expect_nice _ _ _) fun _ => .pure

theorem readBlock_nice (n : Nat) (d : Drawing Img) : Nice false n (readBlock d) :=
  Nice.bind (blockRead_nice n) fun _ => Nice.lift (by simp)

theorem readItems_nice {t : Bool} {type : Str} {callback : Drawing Img → Rd (Drawing Img)}
    (hc : ∀ n d, Nice t n (callback d)) (fuel : Nat) : ∀ n d, (t = true → n < fuel) →
    Nice t n (readItems type callback fuel d) := by
  induction fuel with
  | zero => exact fun n _ h => Nice.fail fun ht => absurd (h ht) (by omega)
  | succ fuel ih =>
    intro n d h
    unfold readItems
    refine Nice.next fun p => NiceP.ite (fun _ => ?_) fun _ => NiceP.fail fun _ => by simp
    exact NiceP.bindLift (fun _ => Calm.assertString) fun _ => NiceP.ite
      (fun _ => NiceP.bindBack .pure) fun _ => NiceP.ite (fun _ => NiceP.bind (fun _ => hc _ _)
        fun _ _ => ih _ _ fun ht => by have := h ht; omega) fun _ => NiceP.fail fun _ => by simp

theorem readEntitySection_nice (t : Bool) (n : Nat) (d : Drawing Img) :
    Nice t n d.readEntitySection :=
  Nice.bind (readEntities_nice t n) fun _ => Nice.lift fun _ =>
    (OnlyPanics.foldlM addReadEntity_panics _ _).calm

theorem readObjectSection_nice (t : Bool) (n : Nat) (d : Drawing Img) :
    Nice t n d.readObjectSection :=
  Nice.bind (readObjects_nice t n) fun _ => Nice.lift fun _ =>
    (OnlyPanics.foldlM addReadObject_panics _ _).calm

theorem readSection_nice (t : Bool) (n : Nat) (codec : ImageCodec Img)
    (hc : t = true → ∀ b, Calm (codec.load b)) (h0 : Header) (name : Str)
    (hn : t = true → name ≠ str!"BLOCKS") (d : Drawing Img) :
    Nice t n (readSection codec h0 name d) := by
  unfold readSection
  refine Nice.ite (fun _ => Nice.bind (header_nice _ _ _) fun _ => .pure) fun _ =>
    Nice.ite (fun _ => Nice.bind (Nice.withFuel fun _ => classReadAll_nice t _ _ _ fun _ => by omega)
      fun _ => .pure) fun _ =>
    Nice.ite (fun _ => Nice.withFuel fun _ => readItems_nice (fun _ _ => readTable_nice _ _ _) _ _ _
      fun _ => by omega) fun _ =>
    Nice.ite (fun hb => ?_) fun _ =>
    Nice.ite (fun _ => readEntitySection_nice _ _ _) fun _ =>
    Nice.ite (fun _ => readObjectSection_nice _ _ _) fun _ =>
    Nice.ite (fun _ => Nice.bind (thumbnail_nice t n codec hc) fun _ => .pure) fun _ =>
    Nice.bind (Nice.withFuel fun _ => swallowSection_nice t _ _ fun _ => by omega) fun _ => .pure
  cases t
  · exact Nice.withFuel fun _ => readItems_nice (fun _ _ => readBlock_nice _ _) _ _ _ (by simp)
  · exact absurd hb (hn rfl)

theorem readSections_nice (t : Bool) (codec : ImageCodec Img)
    (hc : t = true → ∀ b, Calm (codec.load b)) (h0 : Header) (fuel : Nat) :
    ∀ n d, (t = true → n < fuel) → Nice t n (readSections codec h0 fuel d) := by
  induction fuel with
  | zero => exact fun n _ h => Nice.fail fun ht => absurd (h ht) (by omega)
  | succ fuel ih =>
    intro n d h
    unfold readSections
    refine Nice.next? .pure fun p => NiceP.ite (fun _ => ?_) fun _ => NiceP.fail fun _ => by simp
    refine NiceP.bindLift (fun _ => Calm.assertString) fun _ => NiceP.ite
      (fun _ => NiceP.bindBack .pure) fun _ => NiceP.ite (fun _ => NiceP.drop fun _ => ?_)
        fun _ => NiceP.fail fun _ => by simp
    refine Nice.next fun q => NiceP.fine fun hq => ?_
    split
    · rename_i name hname
      refine NiceP.ite (fun h2 => NiceP.bind (fun _ => readSection_nice t _ codec hc h0 name ?_ d)
        fun _ _ => Nice.bind (expect_nice _ _ _) fun _ => ih _ _ fun ht => by have := h ht; omega)
        fun _ => NiceP.fail fun _ => by simp
      rintro ht rfl
      exact hq ht (.inr ⟨h2, hname⟩)
    · exact NiceP.fail fun _ => by simp

end Drawing

end Dxf
