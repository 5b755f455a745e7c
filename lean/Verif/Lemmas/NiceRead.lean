import Verif.Lemmas.Nice
import Verif.Lemmas.Good
import Verif.Model.File

/-! Every reader leaves a tail of the stream; most of them never run out of fuel. -/

namespace Dxf

theorem GoodE.calm {α : Type} {x : Except DxfErr α} (h : GoodE x) : Calm x :=
  fun hc => h _ hc (.inr rfl)

/-- Takes a reader apart; calls of other readers are left. -/
macro "nice" : tactic => `(tactic| repeat' first
  | assumption
  | exact Nice.pure
  | exact NiceP.pure
  | exact NiceP.putBack
  | exact Nice.fail (fun _ => by simp)
  | exact NiceP.fail (fun _ => by simp)
  | exact Calm.assertString
  | exact Calm.assertF64
  | exact Calm.assertI16
  | exact Calm.assertI32
  | exact Calm.assertBinary
  | exact (GoodE.asHandle _).calm
  | refine Nice.next? ?_ fun _ => ?_
  | refine Nice.next fun _ => ?_
  | refine NiceP.bindLift (fun _ => ?_) fun _ => ?_
  | refine NiceP.lift (fun _ => ?_)
  | refine Nice.lift (fun _ => ?_)
  | refine NiceP.bindBack ?_
  | refine NiceP.ite (fun _ => ?_) (fun _ => ?_)
  | refine Nice.ite (fun _ => ?_) (fun _ => ?_)
  | refine NiceP.bite (fun _ => ?_) (fun _ => ?_)
  | refine Nice.bite (fun _ => ?_) (fun _ => ?_)
  | split)

/-! ### Extension groups and extended data -/

theorem readExtItems_nice (t : Bool) (fuel : Nat) : ∀ n, (t = true → n < fuel) →
    Nice t n (readExtItems fuel) := by
  induction fuel with
  | zero => exact fun n h => Nice.fail fun ht => absurd (h ht) (by omega)
  | succ fuel ih =>
    intro n h
    have ih' : ∀ m, m + 1 ≤ n → Nice t m (readExtItems fuel) := fun m hm =>
      ih m fun ht => by have := h ht; omega
    unfold readExtItems
    nice
    · exact NiceP.bind (fun h => ih' _ (by omega)) fun h _ => Nice.bind (ih' _ (by omega)) fun _ => .pure
    · exact NiceP.bind (fun h => ih' _ (by omega)) fun h _ => .pure

theorem extGroup_nice (t : Bool) (n : Nat) (name : Str) (off : Nat) :
    Nice t n (ExtGroup.read name off) := by
  unfold ExtGroup.read
  split
  · exact Nice.withFuel fun k => Nice.bind (readExtItems_nice t _ _ fun _ => by omega) fun _ => .pure
  · exact Nice.fail fun _ => by simp

theorem readDouble_nice (t : Bool) (n : Nat) (c : Int) : Nice t n (XDataItem.readDouble c) := by
  unfold XDataItem.readDouble
  nice

theorem readPoint_nice (t : Bool) (n : Nat) (x : F64) (c : Int) :
    Nice t n (XDataItem.readPoint x c) := by
  unfold XDataItem.readPoint
  exact Nice.bind (readDouble_nice _ _ _) fun _ => Nice.bind (readDouble_nice _ _ _) fun _ => .pure

theorem readItem_nice {t : Bool} {n : Nat} {group : Rd (List XDataItem)} {p : CodePair}
    (hg : Nice t n group) : Nice t n (XDataItem.readItem group p) := by
  have l : ∀ {α β : Type} {x : Except DxfErr α} {f : α → Rd β}, (t = true → Calm x) →
      (∀ a, Nice t n (f a)) → Nice t n (Rd.lift x >>= f) := fun h h' => Nice.bind (Nice.lift h) h'
  unfold XDataItem.readItem
  repeat' refine Nice.ite (fun _ => ?_) (fun _ => ?_)
  all_goals first
    | exact l (fun _ => Calm.assertString) fun _ => .pure
    | exact Nice.bind hg fun _ => .pure
    | exact l (fun _ => (GoodE.asHandle p).calm) fun _ => .pure
    | exact l (fun _ => Calm.assertI16) fun _ => .pure
    | exact l (fun _ => Calm.assertI32) fun _ => .pure
    | exact l (fun _ => Calm.assertF64) fun _ => .pure
    | exact l (fun _ => Calm.assertString) fun _ =>
        l (fun _ => (GoodE.parseHexString _ _).calm) fun _ => .pure
    | exact l (fun _ => Calm.assertF64) fun _ => Nice.bind (readPoint_nice _ _ _ _) fun _ => .pure
    | exact l (fun _ => Calm.assertF64) fun _ => Nice.bind (readDouble_nice _ _ _) fun _ =>
        Nice.bind (readDouble_nice _ _ _) fun _ => .pure
    | exact Nice.fail fun _ => by simp

theorem readGroup_nice (t : Bool) (fuel : Nat) : ∀ n, (t = true → n < fuel) →
    Nice t n (XDataItem.readGroup fuel) := by
  induction fuel with
  | zero => exact fun n h => Nice.fail fun ht => absurd (h ht) (by omega)
  | succ fuel ih =>
    intro n h
    have ih' : ∀ m, m + 1 ≤ n → Nice t m (XDataItem.readGroup fuel) := fun m hm =>
      ih m fun ht => by have := h ht; omega
    unfold XDataItem.readGroup
    refine Nice.next fun p => NiceP.ite (fun _ => NiceP.fail fun _ => by simp) fun _ => ?_
    have hj : ∀ close : Bool, NiceP t n p (if close = true then pure [] else do
        let i ← XDataItem.readItem (XDataItem.readGroup fuel) p
        let is ← XDataItem.readGroup fuel
        pure (i :: is)) := fun close =>
      NiceP.ite (fun _ => .pure) fun _ => NiceP.bind (fun h => readItem_nice (ih' _ (by omega)))
        fun h _ => Nice.bind (ih' _ (by omega)) fun _ => .pure
    exact NiceP.ite (fun _ => NiceP.bindLift (fun _ => Calm.map Calm.assertString) hj)
      fun _ => hj false

theorem xReadItems_nice (t : Bool) (fuel : Nat) : ∀ n, (t = true → n < fuel) →
    Nice t n (XData.readItems fuel) := by
  induction fuel with
  | zero => exact fun n h => Nice.fail fun ht => absurd (h ht) (by omega)
  | succ fuel ih =>
    intro n h
    have ih' : ∀ m, m + 1 ≤ n → Nice t m (XData.readItems fuel) := fun m hm =>
      ih m fun ht => by have := h ht; omega
    unfold XData.readItems
    nice
    exact NiceP.bind (fun h' => readItem_nice (readGroup_nice t _ _ fun ht => by
      have := h ht; omega)) fun h _ => Nice.bind (ih' _ (by omega)) fun _ => .pure

theorem xData_nice (t : Bool) (n : Nat) (name : Str) : Nice t n (XData.read name) :=
  Nice.withFuel fun k => Nice.bind (xReadItems_nice t _ _ fun _ => by omega) fun _ => .pure

/-! ### Records -/

/-- What an arm does is not a fuel error. -/
def Act.Calm {ds : List Decl} : Act ds → Prop
  | .on _ _ => True
  | .custom _ f => ∀ r p, Dxf.Calm (f r p)

theorem date_calm (v : F64) : Calm (Date.ofDouble v) := by
  have hp : Calm (.error .panic : Except DxfErr Date) := by simp [Calm]
  have ho : ∀ d : Date, Calm (.ok d) := fun _ => Calm.ok
  unfold Date.ofDouble
  split
  · exact ho _
  · dsimp only
    split
    · exact hp
    · split
      · exact hp
      · split
        · split
          · exact hp
          · exact ho _
        · exact ho _

theorem rconv_calm {t : Ty} (c : RConv t) (p : CodePair) : Calm (c.read p) := by
  cases c
  case bool => exact Calm.assertBool
  case date =>
    have h := Calm.assertF64 (p := p)
    change Calm (match p.assertF64 with
      | .ok v => Date.ofDouble v
      | .error e => .error e)
    generalize p.assertF64 = x at h ⊢
    cases x with
    | ok v => exact date_calm v
    | error e => exact fun hc => h (by cases hc; rfl)
  all_goals first
    | exact Calm.assertString
    | exact Calm.assertF64
    | exact Calm.assertI16
    | exact Calm.assertI32
    | exact Calm.assertI64
    | exact Calm.assertBinary
    | exact (GoodE.asHandle p).calm
    | exact Calm.map Calm.assertI16
    | exact Calm.map Calm.assertI32
    | exact Calm.map Calm.assertF64
    | exact Calm.map Calm.assertString
    | exact Calm.map Calm.assertBool

theorem fread_calm {t : Ty} (c : FRead t) (old : t.den) (p : CodePair) : Calm (c.apply old p) := by
  cases c
  case set c => exact rconv_calm c p
  case push c => exact Calm.map (rconv_calm c p)
  case axis => exact Calm.map Calm.assertF64
  case pushAxis => exact Calm.map Calm.assertF64
  case lwNew => exact Calm.map Calm.assertF64
  case lwSet f =>
    have hf : ∀ l : LwVertex, Calm (l.setField p f) := fun l => by
      cases f <;> first | exact Calm.map Calm.assertF64 | exact Calm.map Calm.assertI32
    have h := hf LwVertex.dflt
    change Calm (match LwVertex.dflt.setField p f with
      | .error e => .error e
      | .ok _ =>
        match List.getLast? old with
        | none => .error .unexpectedEmptySet
        | some l => (l.setField p f).map fun l' => List.append (List.dropLast old) [l'])
    generalize LwVertex.dflt.setField p f = x at h ⊢
    cases x with
    | error e => exact fun hc => h (by cases hc; rfl)
    | ok _ =>
      dsimp only
      split
      · simp [Calm]
      · exact Calm.map (hf _)

theorem act_calm {ds : List Decl} (a : Act ds) (ha : a.Calm) (r : Rec ds) (p : CodePair) :
    Calm (a.apply r p) := by
  cases a with
  | on i act => exact Calm.map (fread_calm act _ p)
  | custom l f => exact ha r p

theorem applyPair_calm {ds : List Decl} (arms : List (Arm ds)) (h : ∀ a ∈ arms, a.act.Calm)
    (r : Rec ds) (p : CodePair) : Calm (applyPair arms r p) := by
  unfold applyPair
  split
  · rename_i a ha
    exact act_calm _ (h _ (List.mem_of_find?_eq_some ha)) r p
  · simp [Calm]

theorem entryApply_nice {ds : List Decl} {t : Bool} {n : Nat} (arms : List (Arm ds))
    (h : t = true → ∀ a ∈ arms, a.act.Calm) (p : CodePair) (e : Entry ds) :
    Nice t n (Entry.apply arms p e) := by
  unfold Entry.apply
  refine Nice.ite (fun _ => ?_) fun _ => Nice.ite (fun _ => ?_) fun _ => ?_
  · exact Nice.bind (Nice.lift fun _ => Calm.assertString) fun _ =>
      Nice.bind (extGroup_nice _ _ _ _) fun _ => .pure
  · exact Nice.bind (Nice.lift fun _ => Calm.assertString) fun _ =>
      Nice.bind (xData_nice _ _ _) fun _ => .pure
  · exact Nice.bind (Nice.lift fun ht => applyPair_calm arms (h ht) _ _) fun _ => .pure

/-- The loop over the pairs of an item. -/
theorem itemLoop_nice {σ : Type} {t : Bool} (eof : Bool) {step : CodePair → σ → Rd σ}
    (hstep : ∀ n p st, Nice t n (step p st)) (fuel : Nat) : ∀ n st, (t = true → n < fuel) →
    Nice t n (itemLoop eof step fuel st) := by
  induction fuel with
  | zero => exact fun n _ h => Nice.fail fun ht => absurd (h ht) (by omega)
  | succ fuel ih =>
    intro n st h
    unfold itemLoop
    nice
    exact NiceP.bind (fun _ => hstep _ _ _) fun h' st' => ih _ _ fun ht => by have := h ht; omega

theorem item_nice {σ : Type} {t : Bool} {n : Nat} (eof : Bool) {step : CodePair → σ → Rd σ}
    (hstep : ∀ n p st, Nice t n (step p st)) (st : σ) :
    Nice t n (Rd.withFuel fun fuel => itemLoop eof step fuel st) :=
  Nice.withFuel fun _ => itemLoop_nice eof hstep _ _ _ fun _ => by omega

theorem swallowItem_nice (t : Bool) (n : Nat) : Nice t n swallowItem :=
  item_nice false (fun _ _ _ => .pure) ()

end Dxf
