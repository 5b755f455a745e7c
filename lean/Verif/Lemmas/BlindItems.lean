import Verif.Lemmas.BlindRead
import Verif.Model.Block

/-! The readers of entities and blocks do not depend on the places of the pairs. -/

namespace Dxf

theorem EName.arms_blind (k : EName) (m : Mode) : ∀ a ∈ k.kind.arms m, a.act.Blind := by
  obtain ⟨a, b, n⟩ := m
  cases k
  case «attribute» | attributeDefinition =>
    simp only [EName.kind]
    cases a <;> cases b <;> rcases n with _ | _ | _ | n
    all_goals first
      | exact blind_of_on _ (by decide +kernel)
      | skip
    all_goals
      simp only [Ent.attributeArms, Ent.attributeDefinitionArms, commonArms, List.cons_append,
        List.nil_append, cond_true, cond_false]
      repeat' first
        | exact fun _ h => absurd h List.not_mem_nil
        | (refine List.forall_mem_cons.mpr ⟨?_, ?_⟩)
        | exact trivial
        | exact fun _ _ => rfl
  case mText =>
    simp only [EName.kind]
    cases a <;> cases b <;> exact blind_of_on _ (by decide +kernel)
  case dimension =>
    simp only [EName.kind]
    rcases n with _ | _ | _ | _ | _ | _ | n
    case zero =>
      have hd : Ent.readDimensionType.Blind := by
        intro r p
        have h := Like.assertI16 p
        dsimp only
        generalize p.assertI16 = x at h ⊢
        generalize p.strip.assertI16 = y at h ⊢
        cases x <;> cases y
        · exact h
        · exact h.elim
        · exact h.elim
        · cases (show _ = _ from h)
          exact rfl
      simp only [Ent.dimensionArms, Ent.dimensionBaseArms, commonArms, List.cons_append,
        List.nil_append]
      repeat' first
        | exact fun _ h => absurd h List.not_mem_nil
        | (refine List.forall_mem_cons.mpr ⟨?_, ?_⟩)
        | exact trivial
        | exact hd
    all_goals first
      | exact blind_of_on _ (by decide +kernel)
      | exact blind_of_on (commonArms Ent.dimensionSpec) (by decide +kernel)
  all_goals
    simp only [EName.kind]
    exact blind_of_on _ (by decide +kernel)

theorem next_blind (k : EName) (m : Mode) (p : CodePair) :
    k.kind.next m p.strip = k.kind.next m p := by
  cases k <;> rfl

theorem EName.step_blind (k : EName) (p : CodePair) (st : Mode × Entry k.decls) :
    Blind (fun st : Mode × Entry k.decls => (st.1, st.2.strip)) (k.step p st)
      (k.step p.strip (st.1, st.2.strip)) :=
  Blind.bind (entryApply_blind _ (k.arms_blind _) p _) fun e => Blind.pure (by
    rw [next_blind])

theorem swallowItem_blind : Blind id swallowItem swallowItem :=
  item_blind (f := id) false (fun _ _ => Blind.pure rfl) ()

theorem readEntity_blind (fuel : Nat) :
    Blind (Option.map Flat.strip) (readEntity fuel) (readEntity fuel) := by
  induction fuel with
  | zero => exact Blind.fail rfl
  | succ fuel ih =>
    unfold readEntity
    refine Blind.bindNext fun p => Blind.ite Iff.rfl (fun _ => ?_) fun _ => Blind.fail rfl
    refine Blind.bindLift (Like.assertString p) fun s => Blind.ite Iff.rfl
      (fun _ => Blind.bindBack p (Blind.pure rfl)) fun _ => ?_
    cases EName.ofType s with
    | none => exact Blind.bindId swallowItem_blind fun _ => ih
    | some k =>
      refine Blind.bind (item_blind _ k.step_blind (Mode.start, Entry.dflt k.decls)) fun st => ?_
      dsimp only
      cases k.kind.sub st.1 with
      | some m => exact Blind.pure rfl
      | none => exact ih

/-- An error ends the iteration: what counts is its sort. -/
theorem nextEntity_blind : Blind (Option.map Flat.strip) nextEntity nextEntity := by
  intro s
  have h := Blind.withFuel readEntity_blind s
  unfold nextEntity
  generalize Rd.withFuel readEntity s = a at h ⊢
  generalize Rd.withFuel readEntity (Stream.strip s) = b at h ⊢
  obtain ⟨x, t⟩ := a
  obtain ⟨y, t'⟩ := b
  obtain ⟨h1, h2⟩ := h
  dsimp only at h1 h2 ⊢
  cases x with
  | ok a =>
    cases y with
    | ok b => exact ⟨h1, h2⟩
    | error e => exact h1.elim
  | error e =>
    cases y with
    | ok b => exact h1.elim
    | error e' =>
      replace h1 : e'.sort = e.sort := h1
      cases e <;> cases e' <;> first
        | exact ⟨rfl, h2⟩
        | cases h1

theorem nextSlot_blind (slot : Option Flat) :
    Blind (Option.map Flat.strip) (nextSlot slot) (nextSlot (slot.map Flat.strip)) := by
  cases slot with
  | none => exact nextEntity_blind
  | some x => exact Blind.pure rfl

theorem swallowSeqend_blind (slot : Option Flat) :
    Blind (Option.map Flat.strip) (swallowSeqend slot) (swallowSeqend (slot.map Flat.strip)) := by
  unfold swallowSeqend
  refine Blind.bind (nextSlot_blind slot) fun a => ?_
  cases a with
  | none => exact Blind.pure rfl
  | some x => exact Blind.ite Iff.rfl (fun _ => Blind.pure rfl) fun _ => Blind.pure rfl

theorem takeMText_blind (slot : Option Flat) :
    Blind (fun a => (a.1, a.2.map Flat.strip)) (takeMText slot) (takeMText (slot.map Flat.strip)) := by
  unfold takeMText
  refine Blind.bind (nextSlot_blind slot) fun a => ?_
  rcases a with _ | ⟨k, n, e⟩
  · exact Blind.pure rfl
  · cases k <;> exact Blind.pure rfl

theorem gatherAtts_blind (fuel : Nat) : ∀ slot : Option Flat,
    Blind (fun a => (a.1, a.2.map Flat.strip)) (gatherAtts fuel slot)
      (gatherAtts fuel (slot.map Flat.strip)) := by
  induction fuel with
  | zero => exact fun _ => Blind.fail rfl
  | succ fuel ih =>
    intro slot
    unfold gatherAtts
    refine Blind.bind (nextSlot_blind slot) fun a => ?_
    rcases a with _ | ⟨k, n, e⟩
    · exact Blind.pure rfl
    · cases k
      case «attribute» => exact Blind.bind (ih none) fun a => Blind.pure rfl
      all_goals exact Blind.pure rfl

theorem gatherVerts_blind (fuel : Nat) : ∀ slot : Option Flat,
    Blind (fun a => (a.1, a.2.map Flat.strip)) (gatherVerts fuel slot)
      (gatherVerts fuel (slot.map Flat.strip)) := by
  induction fuel with
  | zero => exact fun _ => Blind.fail rfl
  | succ fuel ih =>
    intro slot
    unfold gatherVerts
    refine Blind.bind (nextSlot_blind slot) fun a => ?_
    rcases a with _ | ⟨k, n, e⟩
    · exact Blind.pure rfl
    · cases k
      case vertex => exact Blind.bind (ih none) fun a => Blind.pure rfl
      all_goals exact Blind.pure rfl

theorem wantsAtts_strip (x : Flat) : x.strip.wantsAtts = x.wantsAtts := by
  rcases x with ⟨k, n, e⟩
  cases k <;> rfl

theorem withMText_strip (x : Flat) (m : Option MTextRec) :
    withMText x.strip m = (withMText x m).strip := by
  cases m <;> rfl

theorem collectEntities_blind (fuel : Nat) : ∀ slot : Option Flat,
    Blind (List.map Entity.strip) (collectEntities fuel slot)
      (collectEntities fuel (slot.map Flat.strip)) := by
  induction fuel with
  | zero => exact fun _ => Blind.fail rfl
  | succ fuel ih =>
    intro slot
    unfold collectEntities
    refine Blind.bind (nextSlot_blind slot) fun a => ?_
    cases a with
    | none => exact Blind.pure rfl
    | some x =>
      refine Blind.ite Iff.rfl (fun _ => ?_) fun _ =>
        Blind.ite (Iff.of_eq (congrArg (· = true) (wantsAtts_strip x))) (fun _ => ?_) fun _ =>
          Blind.ite Iff.rfl (fun _ => ?_) fun _ => ?_
      · exact Blind.bind (takeMText_blind none) fun a => Blind.bind (ih _) fun b => Blind.pure (by
          rw [withMText_strip]; rfl)
      · exact Blind.bind (Blind.withFuel fun k => gatherAtts_blind k none) fun a =>
          Blind.bind (swallowSeqend_blind _) fun b => Blind.bind (ih _) fun c => Blind.pure rfl
      · exact Blind.bind (Blind.withFuel fun k => gatherVerts_blind k none) fun a =>
          Blind.bind (swallowSeqend_blind _) fun b => Blind.bind (ih _) fun c => Blind.pure rfl
      · exact Blind.bind (ih none) fun c => Blind.pure rfl

theorem readEntities_blind : Blind (List.map Entity.strip) readEntities readEntities :=
  Blind.withFuel fun k => collectEntities_blind k none

/-! ### Blocks -/

theorem blockArms_blind : ∀ a ∈ Blocks.arms, a.act.Blind := blind_of_on _ (by decide +kernel)

theorem blockReadFrom_blind (fuel : Nat) : ∀ b : Block,
    Blind Block.strip (Block.readFrom fuel b) (Block.readFrom fuel b.strip) := by
  induction fuel with
  | zero => exact fun _ => Blind.fail rfl
  | succ fuel ih =>
    intro b
    unfold Block.readFrom
    refine Blind.bind (item_blind _ (entryApply_blind _ blockArms_blind) b.entry) fun e =>
      Blind.bindNext fun p => Blind.ite Iff.rfl
        (fun _ => Blind.bindId swallowItem_blind fun _ => Blind.pure rfl) fun _ =>
          Blind.bindBack p (Blind.bind readEntities_blind fun es => ?_)
    have h := ih ⟨e, b.entities ++ es⟩
    rw [show Block.strip ⟨e, b.entities ++ es⟩ =
      ⟨e.strip, b.strip.entities ++ es.map Entity.strip⟩ from by simp [Block.strip]] at h
    exact h

theorem blockRead_blind : Blind Block.strip Block.read Block.read :=
  Blind.withFuel fun k => blockReadFrom_blind k Block.dflt

end Dxf
