import Verif.Lemmas.SafeRead
import Verif.Lemmas.NiceItems

/-! The readers of entities, blocks and objects do not panic. -/

namespace Dxf

variable {room : Nat}

theorem sane_of_on {ds : List Decl} (arms : List (Arm ds))
    (h : (arms.all fun a => match a.act with | .on _ c => c.undated | .custom _ _ => false) = true)
    (p : CodePair) : ∀ a ∈ arms, a.act.Sane p := by
  intro a ha
  have := List.all_eq_true.mp h a ha
  cases hact : a.act with
  | on i c => rw [hact] at this; exact .inl this
  | custom l f => rw [hact] at this; simp at this

theorem sane_of_dated {ds : List Decl} (arms : List (Arm ds))
    (h : (arms.all fun a => match a.act with
      | .on _ c => c.undated || a.code == 40
      | .custom _ _ => false) = true)
    (p : CodePair) (hd : p.code = 40 → p.Dated) : ∀ a ∈ arms, a.code = p.code → a.act.Sane p := by
  intro a ha hc
  have := List.all_eq_true.mp h a ha
  cases hact : a.act with
  | on i c =>
    rw [hact] at this
    rcases Bool.or_eq_true _ _ |>.mp this with h | h
    · exact .inl h
    · exact .inr (hd (by rw [← hc]; exact eq_of_beq h))
  | custom l f => rw [hact] at this; simp at this

theorem EName.arms_sane (k : EName) (m : Mode) (p : CodePair) :
    ∀ a ∈ k.kind.arms m, a.act.Sane p := by
  obtain ⟨a, b, n⟩ := m
  cases k
  case «attribute» | attributeDefinition =>
    simp only [EName.kind]
    cases a <;> cases b <;> rcases n with _ | _ | _ | n
    all_goals first
      | exact sane_of_on _ (by decide +kernel) p
      | skip
    all_goals
      simp only [Ent.attributeArms, Ent.attributeDefinitionArms, commonArms, List.cons_append,
        List.nil_append, cond_true, cond_false]
      repeat' first
        | exact fun _ h => absurd h List.not_mem_nil
        | (refine List.forall_mem_cons.mpr ⟨?_, ?_⟩)
        | exact .inl rfl
        | exact fun _ h => by simp at h
  case mText =>
    simp only [EName.kind]
    cases a <;> cases b <;> exact sane_of_on _ (by decide +kernel) p
  case dimension =>
    simp only [EName.kind]
    rcases n with _ | _ | _ | _ | _ | _ | n
    case zero =>
      have hd : Ent.readDimensionType.Sane p := by
        intro r
        have h := Sane.assertI16 (p := p)
        dsimp only
        generalize p.assertI16 = x at h ⊢
        cases x with
        | ok v => exact Sane.ok
        | error e => exact fun hc => h (by cases hc; rfl)
      simp only [Ent.dimensionArms, Ent.dimensionBaseArms, commonArms, List.cons_append,
        List.nil_append]
      repeat' first
        | exact fun _ h => absurd h List.not_mem_nil
        | (refine List.forall_mem_cons.mpr ⟨?_, ?_⟩)
        | exact .inl rfl
        | exact hd
    all_goals first
      | exact sane_of_on _ (by decide +kernel) p
      | exact sane_of_on (commonArms Ent.dimensionSpec) (by decide +kernel) p
  all_goals
    simp only [EName.kind]
    exact sane_of_on _ (by decide +kernel) p

theorem any_code {ds : List Decl} {arms : List (Arm ds)} {p : CodePair}
    (h : ∀ a ∈ arms, a.act.Sane p) : ∀ a ∈ arms, a.code = p.code → a.act.Sane p :=
  fun a ha _ => h a ha

theorem OName.arms_sane (k : OName) (m : OMode) (p : CodePair)
    (hd : k = .layerIndex ∨ k = .spatialIndex → p.code = 40 → p.Dated) :
    ∀ a ∈ k.kind.arms m, a.code = p.code → a.act.Sane p := by
  cases k
  case layout =>
    simp only [OName.kind, Obj.layoutArms]
    refine any_code ?_
    cases m.a <;> exact sane_of_on _ (by decide +kernel) p
  case mLineStyle | sortentsTable | tableStyle | material =>
    simp only [OName.kind, Obj.mLineStyleArms, Obj.sortentsTableArms, Obj.tableStyleArms,
      Obj.materialArms, objectArms, List.cons_append, List.nil_append]
    refine any_code ?_
    repeat' first
      | exact fun _ h => absurd h List.not_mem_nil
      | (refine List.forall_mem_cons.mpr ⟨?_, ?_⟩)
      | exact .inl rfl
      | (unfold Act.Sane; dsimp only; split <;> exact .inl rfl)
      | (unfold Act.Sane; dsimp only; cases m.a <;> exact .inl rfl)
      | (unfold Act.Sane; dsimp only; cases m.seen.contains _ <;> exact .inl rfl)
      | (unfold Act.Sane; dsimp only; generalize List.count _ m.seen = n;
         rcases n with _ | _ | n <;> exact .inl rfl)
  case layerIndex =>
    simp only [OName.kind]
    exact sane_of_dated _ (by decide +kernel) p (hd (.inl rfl))
  case spatialIndex =>
    simp only [OName.kind]
    exact sane_of_dated _ (by decide +kernel) p (hd (.inr rfl))
  all_goals
    simp only [OName.kind]
    exact any_code (sane_of_on _ (by decide +kernel) p)

/-! ### Entities -/

theorem EName.step_safe (k : EName) (p : CodePair) (st : Mode × Entry k.decls) :
    Safe room (k.step p st) :=
  Safe.bind (entryApply_safe _ (fun a ha _ => k.arms_sane _ p a ha) _) fun _ => .pure

/-- A reader that does not panic on harmless streams; for the value `a` at least `c a - k` items
have been used up. -/
def Gets {α : Type} (room k : Nat) (c : α → Nat) (r : Rd α) : Prop :=
  ∀ s, Harmless room s → Ends s (fun a s' => s'.length + c a ≤ s.length + k) (r s)

namespace Gets

variable {α β : Type} {k : Nat} {c : α → Nat} {d : β → Nat}

theorem of {r : Rd α} (h : Safe room r) : Gets room k (fun _ => k) r :=
  fun s hs => (h s hs).imp fun _ _ h _ => Nat.add_le_add_right h.length_le _

theorem safe {r : Rd α} (h : Gets room k c r) : Safe room r := fun s hs => (h s hs).any

theorem mono {l : Nat} {c' : α → Nat} {r : Rd α} (h : Gets room k c r)
    (hc : ∀ a, c' a + k ≤ c a + l) : Gets room l c' r :=
  fun s hs => (h s hs).imp fun a s' _ h => by have := hc a; omega

theorem pure {a : α} (h : c a ≤ k) : Gets room k c (Pure.pure a : Rd α) :=
  fun s _ => .pure (List.suffix_refl s) (by omega)

theorem fail {e : DxfErr} (h : e ≠ .panic) : Gets room k c (Rd.fail e : Rd α) :=
  fun s _ => .fail (List.suffix_refl s) h

theorem bind {m : Rd α} {f : α → Rd β} (hm : Gets room k c m)
    (hf : ∀ a, Gets room (c a) d (f a)) : Gets room k d (m >>= f) :=
  fun s h => (hm s h).bind fun a s' hs hc =>
    ((hf a s' (h.suffix hs)).weaken hs).imp fun b s'' _ hd => by omega

theorem bindLift {x : Except DxfErr α} {f : α → Rd β} (h : Sane x)
    (hf : ∀ a, Gets room k d (f a)) : Gets room k d (Rd.lift x >>= f) :=
  bind (of (Safe.lift h)) hf

theorem bindSafe {m : Rd α} {f : α → Rd β} (h : Safe room m)
    (hf : ∀ a, Gets room k d (f a)) : Gets room k d (m >>= f) :=
  bind (of h) hf

theorem ite {p : Prop} [Decidable p] {a b : Rd α} (ha : p → Gets room k c a)
    (hb : ¬ p → Gets room k c b) : Gets room k c (if p then a else b) := by
  by_cases h : p
  · rw [if_pos h]; exact ha h
  · rw [if_neg h]; exact hb h

theorem withFuel {f : Nat → Rd α} (h : ∀ n, Gets room k c (f n)) : Gets room k c (Rd.withFuel f) :=
  fun s hs => h (s.length + 1) s hs

/-- The same for a reader that runs after the pair `p` has been read, and may put it back. -/
def After (room k : Nat) (c : α → Nat) (p : CodePair) (r : Rd α) : Prop :=
  ∀ s, Harmless room (some (.ok p) :: s) →
    Ends (some (.ok p) :: s) (fun a s' => s'.length + c a ≤ s.length + 1 + k) (r s)

theorem next {f : CodePair → Rd α} (hf : ∀ p, After room k c p (f p)) :
    Gets room k c (Rd.next >>= f) :=
  fun s h => .next h (List.suffix_refl s) fun p s' hs hl =>
    ((hf p s' (h.suffix hs)).weaken hs).imp fun a s'' _ hc => by omega

theorem next? {f : Option CodePair → Rd α} (hn : Gets room k c (f none))
    (hf : ∀ p, After room k c p (f (some p))) : Gets room k c (Rd.next? >>= f) :=
  fun s h => .next? h (List.suffix_refl s)
    (fun s' hs => ((hn s' (h.suffix hs)).weaken hs).imp fun a s'' _ hc => by
      have := hs.length_le
      omega)
    fun p s' hs hl =>
      ((hf p s' (h.suffix hs)).weaken hs).imp fun a s'' _ hc => by omega

namespace After

variable {p : CodePair}

theorem drop {r : Rd α} (h : Gets room (k + 1) c r) : After room k c p r :=
  fun s hs => ((h s (hs.suffix (List.suffix_cons _ _))).weaken (List.suffix_cons _ _)).imp
    fun a s' _ hc => by omega

theorem fail {e : DxfErr} (h : e ≠ .panic) : After room k c p (Rd.fail e : Rd α) := drop (.fail h)

theorem bindLift {x : Except DxfErr α} {f : α → Rd β} (h : Sane x)
    (hf : ∀ a, x = .ok a → After room k d p (f a)) : After room k d p (Rd.lift x >>= f) :=
  fun s hs => .bindLift (List.suffix_cons _ _) h fun a ha => hf a ha s hs

theorem bindBack {f : Unit → Rd α} (hf : Gets room k c (f ())) :
    After room k c p (Rd.putBack p >>= f) :=
  fun s hs => (hf (some (.ok p) :: s) hs).imp fun a s' _ h => by simpa using h

theorem ite {q : Prop} [Decidable q] {a b : Rd α} (ha : q → After room k c p a)
    (hb : ¬ q → After room k c p b) : After room k c p (if q then a else b) := by
  by_cases h : q
  · rw [if_pos h]; exact ha h
  · rw [if_neg h]; exact hb h

end After

end Gets

theorem readEntity_gets (fuel : Nat) : Gets room 0 slotSize (readEntity fuel) := by
  induction fuel with
  | zero => exact .fail (by simp)
  | succ fuel ih =>
    have ih' : Gets room 1 slotSize (readEntity fuel) := ih.mono fun _ => by omega
    unfold readEntity
    refine .next fun p => .ite (fun _ => .bindLift .assertString fun n _ => ?_)
      fun _ => .fail (by simp)
    refine .ite (fun _ => .bindBack (.pure (by simp [slotSize]))) fun _ => ?_
    cases EName.ofType n with
    | none => exact .drop (.bindSafe swallowItem_safe fun _ => ih')
    | some k =>
      refine .drop (.bindSafe (item_safe _ k.step_safe _) fun st => ?_)
      cases k.kind.sub st.1 with
      | some m => exact .pure (by simp [slotSize])
      | none => exact ih'

theorem nextEntity_gets : Gets room 0 slotSize nextEntity := by
  intro s hs
  obtain ⟨h1, h2, h3⟩ := Gets.withFuel (fun n => readEntity_gets (room := room) n) s hs
  unfold nextEntity
  rcases hx : Rd.withFuel readEntity s with ⟨x, s'⟩
  rw [hx] at h1 h2 h3
  rcases x with e | a
  · have h4 : ∀ a, (Except.ok none : Except DxfErr (Option Flat)) = .ok a →
        s'.length + slotSize a ≤ s.length + 0 := by
      rintro _ ⟨⟩
      exact h2.length_le
    cases e with
    | panic => exact absurd rfl h1
    | outOfFuel => exact ⟨by simp [Sane], h2, fun a h => by cases h⟩
    | _ => exact ⟨Sane.ok, h2, h4⟩
  · exact ⟨Sane.ok, h2, h3⟩

theorem nextSlot_gets (k : Nat) (slot : Option Flat) :
    Gets room (k + slotSize slot) (fun a => k + slotSize a) (nextSlot slot) := by
  cases slot with
  | none => exact nextEntity_gets.mono fun a => by simp [slotSize]; omega
  | some x => exact .pure (by simp [slotSize])

theorem swallowSeqend_gets (k : Nat) (slot : Option Flat) :
    Gets room (k + slotSize slot) (fun a => k + slotSize a) (swallowSeqend slot) := by
  unfold swallowSeqend
  refine .bind (nextSlot_gets k slot) fun a => ?_
  cases a with
  | none => exact .pure (by simp [slotSize])
  | some x => exact .ite (fun _ => .pure (by simp [slotSize])) fun _ => .pure (by simp [slotSize])

theorem takeMText_gets (k : Nat) :
    Gets room k (fun a => k + slotSize a.2) (takeMText none) := by
  unfold takeMText
  refine .bind (nextSlot_gets k none) fun a => ?_
  split <;> exact .pure (by simp [slotSize])

theorem gatherAtts_gets (fuel : Nat) : ∀ k,
    Gets room k (fun a => k + a.1.length + slotSize a.2) (gatherAtts fuel none) := by
  induction fuel with
  | zero => exact fun _ => .fail (by simp)
  | succ fuel ih =>
    intro k
    unfold gatherAtts
    refine .bind (nextSlot_gets k none) fun a => ?_
    split
    · exact .bind (ih _) fun b => .pure (by simp only [slotSize_some, List.length_cons]; omega)
    · exact .pure (by simp [slotSize])
    · exact .pure (by simp [slotSize])

theorem gatherVerts_gets (fuel : Nat) : ∀ k,
    Gets room k (fun a => k + a.1.length + slotSize a.2) (gatherVerts fuel none) := by
  induction fuel with
  | zero => exact fun _ => .fail (by simp)
  | succ fuel ih =>
    intro k
    unfold gatherVerts
    refine .bind (nextSlot_gets k none) fun a => ?_
    split
    · exact .bind (ih _) fun b => .pure (by simp only [slotSize_some, List.length_cons]; omega)
    · exact .pure (by simp [slotSize])
    · exact .pure (by simp [slotSize])

/-- The number of entities that have been put together. -/
def Entity.weight (e : Entity) : Nat := 1 + e.extra.atts.length + e.extra.verts.length

theorem collectEntities_gets (fuel : Nat) : ∀ k slot,
    Gets room (k + slotSize slot) (fun es => k + (es.map Entity.weight).sum)
      (collectEntities fuel slot) := by
  induction fuel with
  | zero => exact fun _ _ => .fail (by simp)
  | succ fuel ih =>
    intro k slot
    unfold collectEntities
    refine .bind (nextSlot_gets k slot) fun a => ?_
    cases a with
    | none => exact .pure (by simp)
    | some x =>
      refine .ite (fun _ => ?_) fun _ => .ite (fun _ => ?_) fun _ => .ite (fun _ => ?_) fun _ => ?_
      · refine .bind (takeMText_gets _) fun b => .bind (ih _ _) fun es => .pure ?_
        have : (withMText x b.1).weight = 1 := by cases b.1 <;> rfl
        simp only [List.map_cons, List.sum_cons, this, slotSize_some]
        omega
      · refine .bind (.withFuel fun n => gatherAtts_gets n _) fun b =>
          .bind (swallowSeqend_gets _ _) fun c => .bind (ih _ _) fun es => .pure ?_
        simp only [List.map_cons, List.sum_cons, Entity.weight, slotSize_some, Extra.dflt,
          List.length_nil]
        omega
      · refine .bind (.withFuel fun n => gatherVerts_gets n _) fun b =>
          .bind (swallowSeqend_gets _ _) fun c => .bind (ih _ _) fun es => .pure ?_
        simp only [List.map_cons, List.sum_cons, Entity.weight, slotSize_some, Extra.dflt,
          List.length_nil]
        omega
      · refine .bind (ih (k + 1) none) fun es => .pure ?_
        simp only [List.map_cons, List.sum_cons, Entity.weight, Extra.dflt,
          List.length_nil]
        omega

theorem readEntities_gets (k : Nat) :
    Gets room k (fun es => k + (es.map Entity.weight).sum) readEntities :=
  .withFuel fun n => collectEntities_gets n k none

/-! ### Blocks -/

theorem blockArms_sane (p : CodePair) : ∀ a ∈ Blocks.arms, a.act.Sane p :=
  sane_of_on _ (by decide +kernel) p

theorem weight_sum (es : List Entity) : es.length ≤ (es.map Entity.weight).sum := by
  induction es with
  | nil => simp
  | cons e es ih => simp only [List.map_cons, List.sum_cons, List.length_cons, Entity.weight]; omega

theorem blockReadFrom_gets (fuel : Nat) : ∀ b, Gets room b.entities.length
    (fun b' => b'.entities.length) (Block.readFrom fuel b) := by
  induction fuel with
  | zero => exact fun _ => .fail (by simp)
  | succ fuel ih =>
    intro b
    unfold Block.readFrom
    refine .bindSafe (item_safe _
      (fun p _ => entryApply_safe _ (fun a ha _ => blockArms_sane p a ha) _) _) fun e => ?_
    refine .next fun p => .ite (fun _ => .drop (.bindSafe swallowItem_safe fun _ => .pure ?_))
      fun _ => .bindBack ?_
    · simp
    · refine .bind (readEntities_gets _) fun es => (ih _).mono fun b' => ?_
      have := weight_sum es
      simp only [List.length_append]
      omega

theorem blockRead_gets : Gets room 0 (fun b => b.entities.length) Block.read :=
  .withFuel fun n => blockReadFrom_gets n _

end Dxf
