import Verif.Lemmas.Safe
import Verif.Lemmas.NiceRead
import Verif.Lemmas.SafeDate

/-! The readers of extension groups, extended data and records do not panic. -/

namespace Dxf

/-- Takes a reader apart; calls of other readers are left. -/
macro "safe" : tactic => `(tactic| repeat' first
  | assumption
  | exact Safe.pure
  | exact Safe.After.pure
  | exact Safe.After.putBack
  | exact Safe.fail (by simp)
  | exact Safe.After.fail (by simp)
  | exact Sane.assertString
  | exact Sane.assertF64
  | exact Sane.assertI16
  | exact Sane.assertI32
  | exact Sane.assertBinary
  | exact Sane.asHandle
  | refine Safe.next? ?_ fun _ => ?_
  | refine Safe.next fun _ => ?_
  | refine Safe.After.bindLift ?_ fun _ _ => ?_
  | refine Safe.After.lift ?_
  | refine Safe.lift ?_
  | refine Safe.After.bindBack ?_
  | refine Safe.After.ite (fun _ => ?_) (fun _ => ?_)
  | refine Safe.ite (fun _ => ?_) (fun _ => ?_)
  | split)

variable {room : Nat}

/-! ### Extension groups and extended data -/

theorem readExtItems_safe (fuel : Nat) : Safe room (readExtItems fuel) := by
  induction fuel with
  | zero => exact Safe.fail (by simp)
  | succ fuel ih =>
    unfold readExtItems
    safe
    · exact .bind ih fun _ => .bind ih fun _ => .pure
    · exact .bind ih fun _ => .pure

theorem extGroup_safe (name : Str) (off : Nat) : Safe room (ExtGroup.read name off) := by
  unfold ExtGroup.read
  split
  · exact Safe.withFuel fun k => Safe.bind (readExtItems_safe _) fun _ => .pure
  · exact Safe.fail (by simp)

theorem readDouble_safe (c : Int) : Safe room (XDataItem.readDouble c) := by
  unfold XDataItem.readDouble
  safe

theorem readPoint_safe (x : F64) (c : Int) : Safe room (XDataItem.readPoint x c) := by
  unfold XDataItem.readPoint
  exact Safe.bind (readDouble_safe _) fun _ => Safe.bind (readDouble_safe _) fun _ => .pure

theorem readItem_safe {group : Rd (List XDataItem)} {p : CodePair} (hg : Safe room group) :
    Safe room (XDataItem.readItem group p) := by
  unfold XDataItem.readItem
  repeat' refine Safe.ite (fun _ => ?_) (fun _ => ?_)
  all_goals first
    | exact Safe.bindLift Sane.assertString fun _ => .pure
    | exact Safe.bind hg fun _ => .pure
    | exact Safe.bindLift Sane.asHandle fun _ => .pure
    | exact Safe.bindLift Sane.assertI16 fun _ => .pure
    | exact Safe.bindLift Sane.assertI32 fun _ => .pure
    | exact Safe.bindLift Sane.assertF64 fun _ => .pure
    | exact Safe.bindLift Sane.assertString fun _ =>
        Safe.bindLift (.good (GoodE.parseHexString _ _)) fun _ => .pure
    | exact Safe.bindLift Sane.assertF64 fun _ => Safe.bind (readPoint_safe _ _) fun _ => .pure
    | exact Safe.bindLift Sane.assertF64 fun _ => Safe.bind (readDouble_safe _) fun _ =>
        Safe.bind (readDouble_safe _) fun _ => .pure
    | exact Safe.fail (by simp)

theorem readGroup_safe (fuel : Nat) : Safe room (XDataItem.readGroup fuel) := by
  induction fuel with
  | zero => exact Safe.fail (by simp)
  | succ fuel ih =>
    unfold XDataItem.readGroup
    refine Safe.next fun p => .ite (fun _ => .fail (by simp)) fun _ => ?_
    have hj : ∀ close : Bool, Safe.After room p (if close = true then pure [] else do
        let i ← XDataItem.readItem (XDataItem.readGroup fuel) p
        let is ← XDataItem.readGroup fuel
        pure (i :: is)) := fun close =>
      .ite (fun _ => .pure) fun _ => .bind (readItem_safe ih) fun _ => .bind ih fun _ => .pure
    exact .ite (fun _ => .bindLift (.map .assertString) fun _ _ => hj _) fun _ => hj false

theorem xReadItems_safe (fuel : Nat) : Safe room (XData.readItems fuel) := by
  induction fuel with
  | zero => exact Safe.fail (by simp)
  | succ fuel ih =>
    unfold XData.readItems
    safe
    exact .bind (readItem_safe (readGroup_safe _)) fun _ => .bind ih fun _ => .pure

theorem xData_safe (name : Str) : Safe room (XData.read name) :=
  Safe.withFuel fun _ => Safe.bind (xReadItems_safe _) fun _ => .pure

/-! ### Records -/

/-- The conversion does not make a date. -/
def RConv.undated : {t : Ty} → RConv t → Bool
  | _, .date => false
  | _, _ => true

/-- The same for a field. -/
def FRead.undated : {t : Ty} → FRead t → Bool
  | _, .set c => c.undated
  | _, .push c => c.undated
  | _, _ => true

/-- A pair whose number, if it has one, is that of a day. -/
def CodePair.Dated (p : CodePair) : Prop := ∀ f, p.value = .double f → DayNumber f

theorem double_of_assert {p : CodePair} {v : F64} (h : p.assertF64 = .ok v) :
    p.value = .double v := by
  unfold CodePair.assertF64 at h
  split at h
  · cases h; assumption
  · cases h

theorem short_of_assert {p : CodePair} {v : I16} (h : p.assertI16 = .ok v) :
    p.value = .short v ∨ p.value = .boolean v := by
  unfold CodePair.assertI16 at h
  split at h
  · cases h; exact .inr ‹_›
  · cases h; exact .inl ‹_›
  · cases h

theorem integer_of_assert {p : CodePair} {v : I32} (h : p.assertI32 = .ok v) :
    p.value = .integer v := by
  unfold CodePair.assertI32 at h
  split at h
  · cases h; assumption
  · cases h

theorem str_of_assert {p : CodePair} {v : Str} (h : p.assertString = .ok v) :
    p.value = .str v := by
  unfold CodePair.assertString at h
  split at h
  · cases h; assumption
  · cases h

theorem rconv_sane {t : Ty} (c : RConv t) (p : CodePair) (hc : c.undated = true ∨ p.Dated) :
    Sane (c.read p) := by
  cases c
  case date =>
    have hd : p.Dated := hc.resolve_left (by simp [RConv.undated])
    have h := Sane.assertF64 (p := p)
    change Sane (match p.assertF64 with
      | .ok v => Date.ofDouble v
      | .error e => .error e)
    cases hx : p.assertF64 with
    | ok v => exact date_sane (hd _ (double_of_assert hx))
    | error e => rw [hx] at h; exact fun hc => h (by cases hc; rfl)
  all_goals first
    | exact Sane.assertBool
    | exact Sane.assertString
    | exact Sane.assertF64
    | exact Sane.assertI16
    | exact Sane.assertI32
    | exact Sane.assertI64
    | exact Sane.assertBinary
    | exact Sane.asHandle
    | exact Sane.map Sane.assertI16
    | exact Sane.map Sane.assertI32
    | exact Sane.map Sane.assertF64
    | exact Sane.map Sane.assertString
    | exact Sane.map Sane.assertBool

theorem fread_sane {t : Ty} (c : FRead t) (old : t.den) (p : CodePair)
    (hc : c.undated = true ∨ p.Dated) : Sane (c.apply old p) := by
  cases c
  case set c => exact rconv_sane c p hc
  case push c => exact Sane.map (rconv_sane c p hc)
  case axis => exact Sane.map Sane.assertF64
  case pushAxis => exact Sane.map Sane.assertF64
  case lwNew => exact Sane.map Sane.assertF64
  case lwSet f =>
    have hf : ∀ l : LwVertex, Sane (l.setField p f) := fun l => by
      cases f <;> first | exact Sane.map Sane.assertF64 | exact Sane.map Sane.assertI32
    have h := hf LwVertex.dflt
    change Sane (match LwVertex.dflt.setField p f with
      | .error e => .error e
      | .ok _ =>
        match List.getLast? old with
        | none => .error .unexpectedEmptySet
        | some l => (l.setField p f).map fun l' => List.append (List.dropLast old) [l'])
    generalize LwVertex.dflt.setField p f = x at h ⊢
    cases x with
    | error e => exact fun hc => h (by cases hc; rfl)
    | ok _ =>
      dsimp only
      split
      · simp [Sane]
      · exact Sane.map (hf _)

/-- What an arm does with the pair `p` is not a panic. -/
def Act.Sane {ds : List Decl} (p : CodePair) : Act ds → Prop
  | .on _ c => c.undated = true ∨ p.Dated
  | .custom _ f => ∀ r, Dxf.Sane (f r p)

theorem act_sane {ds : List Decl} (a : Act ds) {p : CodePair} (ha : a.Sane p) (r : Rec ds) :
    Sane (a.apply r p) := by
  cases a with
  | on i act => exact Sane.map (fread_sane act _ p ha)
  | custom l f => exact ha r

theorem applyPair_sane {ds : List Decl} (arms : List (Arm ds)) {p : CodePair}
    (h : ∀ a ∈ arms, a.code = p.code → a.act.Sane p) (r : Rec ds) : Sane (applyPair arms r p) := by
  unfold applyPair
  split
  · rename_i a ha
    exact act_sane _ (h _ (List.mem_of_find?_eq_some ha) (by
      simpa using List.find?_some ha)) r
  · simp [Sane]

theorem entryApply_safe {ds : List Decl} (arms : List (Arm ds)) {p : CodePair}
    (h : ∀ a ∈ arms, a.code = p.code → a.act.Sane p) (e : Entry ds) :
    Safe room (Entry.apply arms p e) := by
  unfold Entry.apply
  refine Safe.ite (fun _ => ?_) fun _ => Safe.ite (fun _ => ?_) fun _ => ?_
  · exact Safe.bindLift Sane.assertString fun _ => Safe.bind (extGroup_safe _ _) fun _ => .pure
  · exact Safe.bindLift Sane.assertString fun _ => Safe.bind (xData_safe _) fun _ => .pure
  · exact Safe.bindLift (applyPair_sane arms h _) fun _ => .pure

/-- The pairs that have been read of an item. -/
def Within (b : Stream) : Prop :=
  (∀ x, some (.ok x) ∈ b → x.code ≠ 0) ∨ ∃ x, some (.ok x) ∈ b ∧ (x.code = 102 ∨ x.code = 1001)

/-- What comes before the next result. -/
theorem Stream.next_cases (s : Stream) : ∃ c, (∀ it ∈ c, isComment it = true) ∧
    ((s.next.1 = none ∧ s.next.2 <:+ s) ∨ s = c ++ s.next.1 :: s.next.2) := by
  induction s with
  | nil => exact ⟨[], by simp, .inl ⟨rfl, List.suffix_refl _⟩⟩
  | cons it r ih =>
    rw [Stream.next]
    split
    · rename_i hc
      obtain ⟨c, h1, h2⟩ := ih
      refine ⟨it :: c, ?_, ?_⟩
      · intro x hx
        rcases List.mem_cons.mp hx with rfl | hx
        · exact hc
        · exact h1 x hx
      · rcases h2 with h2 | h2
        · exact .inl ⟨h2.1, h2.2.trans (List.suffix_cons _ _)⟩
        · exact .inr (by rw [List.cons_append, ← h2])
    · exact ⟨[], by simp, .inr rfl⟩

theorem Within.comments {b c : Stream} (h : Within b) (hc : ∀ it ∈ c, isComment it = true) :
    Within (b ++ c) := by
  rcases h with h | ⟨x, h, h'⟩
  · refine .inl fun x hx => ?_
    rcases List.mem_append.mp hx with hx | hx
    · exact h x hx
    · have := hc _ hx
      simp only [isComment, decide_eq_true_eq] at this
      omega
  · exact .inr ⟨x, List.mem_append_left _ h, h'⟩

/-- The loop over the pairs of an item, with an invariant on the state and on what has been
read. -/
theorem itemLoop_ends {σ : Type} (W : Prop) {s0 : Stream} (h0 : Harmless room s0) (eof : Bool)
    {step : CodePair → σ → Rd σ} (I : σ → Stream → Prop)
    (hmono : ∀ st b c, I st b → I st (b ++ c))
    (hstep : ∀ q st b s, s0 = b ++ some (.ok q) :: s → (W → Within b) → I st b → q.code ≠ 0 →
      Ends s (fun st' s' => I st' (b ++ [some (.ok q)]) ∧
        (W → q.code = 102 ∨ q.code = 1001 ∨ s' = s)) (step q st s)) (fuel : Nat) :
    ∀ st b s, s0 = b ++ s → (W → Within b) → I st b →
      Ends s0 (fun st' s' => ∃ b', s0 = b' ++ s' ∧ I st' b') (itemLoop eof step fuel st s) := by
  induction fuel with
  | zero => exact fun st b s hs _ _ => .fail ⟨b, hs.symm⟩ (by simp)
  | succ fuel ih =>
    intro st b s hs hw hi
    have hss : s <:+ s0 := ⟨b, hs.symm⟩
    unfold itemLoop
    obtain ⟨h2, h3⟩ := Stream.next_suffix s
    obtain ⟨c, hc, hsp⟩ := Stream.next_cases s
    rw [Rd.run_bind, Rd.next?]
    rcases hx : Stream.next s with ⟨x, s'⟩
    rw [hx] at h2 h3 hsp
    rcases x with _ | (e | p)
    · dsimp only
      refine .ite (fun _ => .pure (h2.trans hss) ?_) fun _ => .fail (h2.trans hss) (by simp)
      obtain ⟨t, rfl⟩ := h2
      exact ⟨b ++ t, by rw [hs]; simp, hmono _ _ _ hi⟩
    · refine ⟨fun hc => ?_, h2.trans hss, fun b hb => by cases hb⟩
      cases hc
      exact h0.items (((h3 _ rfl).trans hss).subset List.mem_cons_self)
    · have hs' : s = c ++ some (.ok p) :: s' := by
        rcases hsp with h | h
        · cases h.1
        · exact h
      have e1 : s0 = (b ++ c) ++ some (.ok p) :: s' := by rw [hs, hs']; simp
      have hw' : W → Within (b ++ c) := fun w => (hw w).comments hc
      refine .ite (fun _ => .bindBack (.pure ⟨_, e1.symm⟩ ⟨_, e1, hmono _ _ _ hi⟩)) fun h00 => ?_
      have e2 : s0 = (b ++ c ++ [some (.ok p)]) ++ s' := by rw [e1]; simp
      have hst := hstep p st (b ++ c) s' e1 hw' (hmono _ _ _ hi) h00
      refine Ends.bind (s0 := s0) (Q := fun st' s'' => s'' <:+ s' ∧
        I st' (b ++ c ++ [some (.ok p)]) ∧ (W → p.code = 102 ∨ p.code = 1001 ∨ s'' = s')) ?_ ?_
      · exact (hst.imp fun a s hs h => ⟨hs, h⟩).weaken ⟨_, e2.symm⟩
      · rintro st' s'' - ⟨⟨b', rfl⟩, hI, hW⟩
        refine ih st' (b ++ c ++ [some (.ok p)] ++ b') s'' (by rw [e2]; simp) (fun w => ?_)
          (hmono _ _ _ hI)
        rcases hW w with h | h | h
        · exact .inr ⟨p, by simp, .inl h⟩
        · exact .inr ⟨p, by simp, .inr h⟩
        · have hb' : b' = [] := by simpa using h
          subst hb'
          rcases hw' w with h' | ⟨x, h', h''⟩
          · refine .inl fun x hx => ?_
            simp only [List.append_nil, List.mem_append, List.mem_singleton, Option.some.injEq,
              Except.ok.injEq] at hx
            rcases hx with hx | rfl
            · exact h' x (List.mem_append.mpr hx)
            · exact h00
          · exact .inr ⟨x, List.mem_append_left _ (List.mem_append_left _ h'), h''⟩

theorem item_safe {σ : Type} (eof : Bool) {step : CodePair → σ → Rd σ}
    (hstep : ∀ p st, Safe room (step p st)) (st : σ) :
    Safe room (Rd.withFuel fun fuel => itemLoop eof step fuel st) := by
  intro s hs
  refine (itemLoop_ends False hs eof Any (fun _ _ _ _ => trivial) (fun q st b s' h _ _ _ => ?_) _
    st [] s rfl (fun h => h.elim) trivial).any
  exact (hstep q st s' (hs.suffix ⟨b ++ [some (.ok q)], by rw [h]; simp⟩)).imp
    fun _ _ _ _ => ⟨trivial, fun h => h.elim⟩

theorem swallowItem_safe : Safe room swallowItem := item_safe false (fun _ _ => .pure) ()

end Dxf
