import Verif.Lemmas.NiceRead
import Verif.Lemmas.Objects

/-! Readers of entities, objects and blocks leave a tail of the stream and use up what they
return. -/

namespace Dxf

theorem calm_of_on {ds : List Decl} (arms : List (Arm ds))
    (h : (arms.all fun a => match a.act with | .on _ _ => true | .custom _ _ => false) = true) :
    ∀ a ∈ arms, a.act.Calm := by
  intro a ha
  have := List.all_eq_true.mp h a ha
  cases hact : a.act with
  | on i c => trivial
  | custom l f => rw [hact] at this; simp at this

theorem EName.arms_calm (k : EName) (m : Mode) : ∀ a ∈ k.kind.arms m, a.act.Calm := by
  obtain ⟨a, b, n⟩ := m
  cases k
  case «attribute» | attributeDefinition =>
    simp only [EName.kind]
    cases a <;> cases b <;> rcases n with _ | _ | _ | n
    all_goals first
      | exact calm_of_on _ (by decide +kernel)
      | skip
    all_goals
      simp only [Ent.attributeArms, Ent.attributeDefinitionArms, commonArms, List.cons_append,
        List.nil_append, cond_true, cond_false]
      repeat' first
        | exact fun _ h => absurd h List.not_mem_nil
        | (refine List.forall_mem_cons.mpr ⟨?_, ?_⟩)
        | exact trivial
        | exact fun _ _ h => by simp at h
  case mText =>
    simp only [EName.kind]
    cases a <;> cases b <;> exact calm_of_on _ (by decide +kernel)
  case dimension =>
    simp only [EName.kind]
    rcases n with _ | _ | _ | _ | _ | _ | n
    case zero =>
      have hd : Ent.readDimensionType.Calm := by
        intro r p
        have h := Calm.assertI16 (p := p)
        dsimp only
        generalize p.assertI16 = x at h ⊢
        cases x with
        | ok v => exact Calm.ok
        | error e => exact fun hc => h (by cases hc; rfl)
      simp only [Ent.dimensionArms, Ent.dimensionBaseArms, commonArms, List.cons_append,
        List.nil_append]
      repeat' first
        | exact fun _ h => absurd h List.not_mem_nil
        | (refine List.forall_mem_cons.mpr ⟨?_, ?_⟩)
        | exact trivial
        | exact hd
    all_goals first
      | exact calm_of_on _ (by decide +kernel)
      | exact calm_of_on (commonArms Ent.dimensionSpec) (by decide +kernel)
  all_goals
    simp only [EName.kind]
    exact calm_of_on _ (by decide +kernel)

theorem OName.arms_calm (k : OName) (m : OMode) : ∀ a ∈ k.kind.arms m, a.act.Calm := by
  cases k
  case layout =>
    simp only [OName.kind, Obj.layoutArms]
    cases m.a <;> exact calm_of_on _ (by decide +kernel)
  case mLineStyle | sortentsTable | tableStyle | material =>
    simp only [OName.kind, Obj.mLineStyleArms, Obj.sortentsTableArms, Obj.tableStyleArms,
      Obj.materialArms, objectArms, List.cons_append, List.nil_append]
    repeat' first
      | exact fun _ h => absurd h List.not_mem_nil
      | (refine List.forall_mem_cons.mpr ⟨?_, ?_⟩)
      | exact trivial
      | (unfold Act.Calm; dsimp only; split <;> exact trivial)
      | (unfold Act.Calm; dsimp only; cases m.a <;> exact trivial)
      | (unfold Act.Calm; dsimp only; cases m.seen.contains _ <;> exact trivial)
      | (unfold Act.Calm; dsimp only; generalize List.count _ m.seen = n;
         rcases n with _ | _ | n <;> exact trivial)
  all_goals
    simp only [OName.kind]
    exact calm_of_on _ (by decide +kernel)

/-! ### Entities -/

theorem EName.step_nice (k : EName) {t : Bool} {n : Nat} (p : CodePair) (st : Mode × Entry k.decls) :
    Nice t n (k.step p st) :=
  Nice.bind (entryApply_nice _ (fun _ => k.arms_calm _) _ _) fun _ => Nice.pure

/-- One if there is something. -/
def slotSize {α : Type} : Option α → Nat
  | some _ => 1
  | none => 0

theorem slotSize_some {α : Type} (x : α) : slotSize (some x) = 1 := rfl
theorem slotSize_none {α : Type} : slotSize (none : Option α) = 0 := rfl

theorem readEntity_nice (t : Bool) (fuel : Nat) : ∀ n, (t = true → n < fuel) →
    NiceC t n slotSize (readEntity fuel) := by
  induction fuel with
  | zero => exact fun n h => NiceC.fail fun ht => absurd (h ht) (by omega)
  | succ fuel ih =>
    intro n h
    have ih' : ∀ c : Option Flat → Nat, (∀ a, c a ≤ slotSize a) → 1 ≤ n →
        NiceC t (n - 1) c (readEntity fuel) := fun c hc hn =>
      (ih (n - 1) fun ht => by have := h ht; omega).mono hc
    unfold readEntity
    refine NicePC.next fun p _ => NicePC.ite (fun _ => ?_) fun _ => NicePC.fail fun _ => by simp
    refine NicePC.bindLift (fun _ => Calm.assertString) fun s => ?_
    refine NicePC.ite (fun _ => NicePC.back rfl) fun _ => ?_
    cases EName.ofType s with
    | none =>
      exact NicePC.drop fun hn => NiceC.bindC (NiceC.of (swallowItem_nice t _)) fun _ _ =>
        ih' _ (fun a => by cases a <;> simp [slotSize]) hn
    | some k =>
      refine NicePC.drop fun hn => NiceC.bindC (NiceC.of (item_nice _ (fun _ => k.step_nice) _))
        fun st _ => ?_
      cases k.kind.sub st.1 with
      | some m => exact NiceC.pure rfl
      | none => exact ih' _ (fun a => by cases a <;> simp [slotSize]) hn

theorem nextEntity_nice (t : Bool) (n : Nat) : NiceC t n slotSize nextEntity := by
  have hr : NiceC t n slotSize (Rd.withFuel readEntity) := NiceC.withFuel fun k =>
    readEntity_nice t _ _ fun _ => by omega
  have key : ∀ s, (nextEntity s).2 = (Rd.withFuel readEntity s).2 ∧
      ((nextEntity s).1 = .error .outOfFuel → (Rd.withFuel readEntity s).1 = .error .outOfFuel) ∧
      ∀ a, (nextEntity s).1 = .ok a → a = none ∨ (Rd.withFuel readEntity s).1 = .ok a := by
    intro s
    unfold nextEntity
    rcases Rd.withFuel readEntity s with ⟨x, s'⟩
    rcases x with e | a
    · cases e <;> simp [eq_comm]
    · simp
  refine ⟨fun s hs hn => ⟨?_, fun ht hc => ?_⟩, fun s hs hn a ha => ?_⟩
  · rw [(key s).1]
    exact (hr.1 s hs hn).1
  · exact (hr.1 s hs hn).2 ht ((key s).2.1 hc)
  · rw [(key s).1]
    rcases (key s).2.2 a ha with rfl | h
    · exact (hr.1 s hs hn).1.length_le
    · exact hr.2 s hs hn a h

theorem nextSlot_nice (t : Bool) (n : Nat) (slot : Option Flat) :
    NiceC t n (fun a => slotSize a - slotSize slot) (nextSlot slot) := by
  cases slot with
  | none => exact (nextEntity_nice t n).mono fun a => by simp [slotSize]
  | some x => exact NiceC.pure (by simp [slotSize])

theorem swallowSeqend_nice (t : Bool) (n : Nat) (slot : Option Flat) :
    NiceC t n (fun a => slotSize a - slotSize slot) (swallowSeqend slot) := by
  unfold swallowSeqend
  refine NiceC.bindC (nextSlot_nice t n slot) fun a _ => ?_
  cases a with
  | none => exact NiceC.pure (by simp [slotSize])
  | some x =>
    exact NiceC.ite (fun _ => NiceC.pure (by simp [slotSize]))
      fun _ => NiceC.pure (by simp [slotSize])

theorem takeMText_nice (t : Bool) (n : Nat) :
    NiceC t n (fun a => slotSize a.2) (takeMText none) := by
  unfold takeMText
  refine NiceC.bindC (nextSlot_nice t n none) fun a _ => ?_
  split <;> exact NiceC.pure (by simp [slotSize])

theorem gatherAtts_nice (t : Bool) (fuel : Nat) : ∀ n, (t = true → n < fuel) →
    NiceC t n (fun a => slotSize a.2) (gatherAtts fuel none) := by
  induction fuel with
  | zero => exact fun n h => NiceC.fail fun ht => absurd (h ht) (by omega)
  | succ fuel ih =>
    intro n h
    unfold gatherAtts
    refine NiceC.bindC (nextSlot_nice t n none) fun a ha => ?_
    split
    · refine NiceC.bindC ((ih _ fun ht => ?_).mono fun _ => Nat.le_refl _) fun b hb => ?_
      · have := h ht
        simp only [slotSize_some, slotSize_none] at ha ⊢
        omega
      · exact NiceC.pure (by simp only [slotSize_some, slotSize_none]; omega)
    · exact NiceC.pure (by simp [slotSize])
    · exact NiceC.pure (by simp [slotSize])

theorem gatherVerts_nice (t : Bool) (fuel : Nat) : ∀ n, (t = true → n < fuel) →
    NiceC t n (fun a => slotSize a.2) (gatherVerts fuel none) := by
  induction fuel with
  | zero => exact fun n h => NiceC.fail fun ht => absurd (h ht) (by omega)
  | succ fuel ih =>
    intro n h
    unfold gatherVerts
    refine NiceC.bindC (nextSlot_nice t n none) fun a ha => ?_
    split
    · refine NiceC.bindC ((ih _ fun ht => ?_).mono fun _ => Nat.le_refl _) fun b hb => ?_
      · have := h ht
        simp only [slotSize_some, slotSize_none] at ha ⊢
        omega
      · exact NiceC.pure (by simp only [slotSize_some, slotSize_none]; omega)
    · exact NiceC.pure (by simp [slotSize])
    · exact NiceC.pure (by simp [slotSize])

theorem slotSize_le {α : Type} (o : Option α) : slotSize o ≤ 1 := by cases o <;> simp [slotSize]

theorem collectEntities_nice (t : Bool) (fuel : Nat) : ∀ n slot,
    (t = true → n + slotSize slot < fuel) → Nice t n (collectEntities fuel slot) := by
  induction fuel with
  | zero => exact fun n _ h => Nice.fail fun ht => absurd (h ht) (by omega)
  | succ fuel ih =>
    intro n slot h
    unfold collectEntities
    refine NiceC.bind (nextSlot_nice t n slot) fun a ha => ?_
    cases a with
    | none => exact Nice.pure
    | some x =>
      simp only [slotSize_some, slotSize_none] at ha
      have hs := slotSize_le slot
      refine Nice.ite (fun _ => ?_) fun _ => Nice.ite (fun _ => ?_) fun _ =>
        Nice.ite (fun _ => ?_) fun _ => ?_
      · refine NiceC.bind (takeMText_nice t _) fun b hb => Nice.bind (ih _ _ fun ht => ?_) fun _ => .pure
        have := h ht
        simp only [slotSize_some, slotSize_none] at hb ⊢
        omega
      · refine NiceC.bind (NiceC.withFuel fun k => gatherAtts_nice t _ _ fun _ => by omega)
          fun b hb => NiceC.bind (swallowSeqend_nice t _ _) fun c hc =>
            Nice.bind (ih _ _ fun ht => ?_) fun _ => .pure
        have := h ht
        simp only [slotSize_some, slotSize_none] at hb hc ⊢
        omega
      · refine NiceC.bind (NiceC.withFuel fun k => gatherVerts_nice t _ _ fun _ => by omega)
          fun b hb => NiceC.bind (swallowSeqend_nice t _ _) fun c hc =>
            Nice.bind (ih _ _ fun ht => ?_) fun _ => .pure
        have := h ht
        simp only [slotSize_some, slotSize_none] at hb hc ⊢
        omega
      · refine Nice.bind (ih _ _ fun ht => ?_) fun _ => .pure
        have := h ht
        simp only [slotSize_some, slotSize_none]
        omega

theorem readEntities_nice (t : Bool) (n : Nat) : Nice t n readEntities :=
  Nice.withFuel fun _ => collectEntities_nice t _ _ _ fun _ => by simp [slotSize]

/-! ### Blocks -/

theorem blockArms_calm : ∀ a ∈ Blocks.arms, a.act.Calm := calm_of_on _ (by decide +kernel)

theorem blockReadFrom_nice (fuel : Nat) : ∀ n b, Nice false n (Block.readFrom fuel b) := by
  induction fuel with
  | zero => exact fun n _ => Nice.fail (by simp)
  | succ fuel ih =>
    intro n b
    unfold Block.readFrom
    refine Nice.bind (item_nice _ (fun _ _ _ => entryApply_nice _ (fun _ => blockArms_calm) _ _) _)
      fun e => Nice.next fun p => NiceP.ite (fun _ => NiceP.drop fun _ =>
        Nice.bind (swallowItem_nice _ _) fun _ => .pure) fun _ => NiceP.bindBack ?_
    exact Nice.bind (readEntities_nice _ _) fun es => ih _ _

theorem blockRead_nice (n : Nat) : Nice false n Block.read :=
  Nice.withFuel fun _ => blockReadFrom_nice _ _ _

end Dxf
