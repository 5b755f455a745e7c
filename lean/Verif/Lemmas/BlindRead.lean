import Verif.Lemmas.Blind
import Verif.Lemmas.NiceRead

/-! The readers of entries do not depend on the places of the pairs. -/

namespace Dxf

theorem readExtItems_blind (fuel : Nat) :
    Blind ExtItem.stripList (readExtItems fuel) (readExtItems fuel) := by
  induction fuel with
  | zero => exact Blind.fail rfl
  | succ fuel ih =>
    unfold readExtItems
    refine Blind.bindNext fun p => Blind.ite Iff.rfl (fun _ => ?_) fun _ => ?_
    · refine Blind.bindLift (Like.assertString p) fun s => ?_
      split
      · exact Blind.bind ih fun a => Blind.bind ih fun b => Blind.pure rfl
      · exact Blind.ite Iff.rfl (fun _ => Blind.pure rfl) fun _ => Blind.fail rfl
    · exact Blind.bind ih fun b => Blind.pure rfl

theorem extGroup_blind (s : Str) (o o' : Nat) :
    Blind ExtGroup.strip (ExtGroup.read s o) (ExtGroup.read s o') := by
  unfold ExtGroup.read
  split
  · exact Blind.withFuel fun _ => Blind.bind (readExtItems_blind _) fun _ => Blind.pure rfl
  · exact Blind.fail rfl

theorem readDouble_blind (c : Int) : Blind id (XDataItem.readDouble c) (XDataItem.readDouble c) :=
  Blind.bindNext fun p => Blind.ite Iff.rfl (fun _ => Blind.lift (Like.assertF64 p)) fun _ =>
    Blind.fail rfl

theorem readPoint_blind (x : F64) (c : Int) :
    Blind id (XDataItem.readPoint x c) (XDataItem.readPoint x c) :=
  Blind.bindId (readDouble_blind _) fun _ => Blind.bindId (readDouble_blind _) fun _ =>
    Blind.pure rfl

theorem readItem_blind {m m' : Rd (List XDataItem)} (h : Blind id m m') (p : CodePair) :
    Blind id (XDataItem.readItem m p) (XDataItem.readItem m' p.strip) := by
  unfold XDataItem.readItem
  repeat' first
    | refine Blind.ite Iff.rfl (fun _ => ?_) fun _ => ?_
    | exact Blind.bindLift (Like.assertString p) fun _ => Blind.pure rfl
    | exact Blind.bindLift (Like.assertF64 p) fun _ => Blind.pure rfl
    | exact Blind.bindLift (Like.assertI16 p) fun _ => Blind.pure rfl
    | exact Blind.bindLift (Like.assertI32 p) fun _ => Blind.pure rfl
    | exact Blind.bindLift (Like.asHandle p) fun _ => Blind.pure rfl
    | exact Blind.bindLift (Like.assertF64 p) fun _ => Blind.bindId (readPoint_blind _ _) fun _ =>
        Blind.pure rfl
    | exact Blind.bindLift (Like.assertF64 p) fun _ => Blind.bindId (readDouble_blind _) fun _ =>
        Blind.bindId (readDouble_blind _) fun _ => Blind.pure rfl
    | exact Blind.bindLift (Like.assertString p) fun _ =>
        Blind.bindLift (Like.parseHexString _ _ _) fun _ => Blind.pure rfl
    | exact Blind.bindId h fun _ => Blind.pure rfl
    | exact Blind.fail rfl

theorem readGroup_blind (fuel : Nat) :
    Blind id (XDataItem.readGroup fuel) (XDataItem.readGroup fuel) := by
  induction fuel with
  | zero => exact Blind.fail rfl
  | succ fuel ih =>
    unfold XDataItem.readGroup
    refine Blind.bindNext fun p => Blind.ite Iff.rfl (fun _ => Blind.fail rfl) fun _ => ?_
    have hj : ∀ b : Bool, Blind id
        (if b then (pure [] : Rd (List XDataItem)) else do
          let i ← XDataItem.readItem (XDataItem.readGroup fuel) p
          let is ← XDataItem.readGroup fuel
          return i :: is)
        (if b then (pure [] : Rd (List XDataItem)) else do
          let i ← XDataItem.readItem (XDataItem.readGroup fuel) p.strip
          let is ← XDataItem.readGroup fuel
          return i :: is) := fun b =>
      Blind.ite Iff.rfl (fun _ => Blind.pure rfl) fun _ => Blind.bindId (readItem_blind ih p)
        fun _ => Blind.bindId ih fun _ => Blind.pure rfl
    refine Blind.ite Iff.rfl (fun _ => ?_) fun _ => ?_
    · exact Blind.bindLift (Like.map (Like.assertString p) fun _ => rfl) hj
    · exact hj false

theorem xdataItems_blind (fuel : Nat) : Blind id (XData.readItems fuel) (XData.readItems fuel) := by
  induction fuel with
  | zero => exact Blind.fail rfl
  | succ fuel ih =>
    unfold XData.readItems
    refine Blind.bindNext? (Blind.pure rfl) fun p => Blind.ite Iff.rfl
      (fun _ => Blind.bindBack p (Blind.pure rfl)) fun _ => Blind.ite Iff.rfl
      (fun _ => Blind.bindBack p (Blind.pure rfl)) fun _ => ?_
    exact Blind.bindId (readItem_blind (readGroup_blind _) p) fun _ => Blind.bindId ih fun _ =>
      Blind.pure rfl

theorem xdata_blind (s : Str) : Blind id (XData.read s) (XData.read s) :=
  Blind.withFuel fun _ => Blind.bindId (xdataItems_blind _) fun _ => Blind.pure rfl

theorem itemLoop_blind {σ τ : Type} {f : σ → τ} (eof : Bool) {step : CodePair → σ → Rd σ}
    {step' : CodePair → τ → Rd τ} (h : ∀ p st, Blind f (step p st) (step' p.strip (f st)))
    (fuel : Nat) : ∀ st, Blind f (itemLoop eof step fuel st) (itemLoop eof step' fuel (f st)) := by
  induction fuel with
  | zero => exact fun _ => Blind.fail rfl
  | succ fuel ih =>
    intro st
    unfold itemLoop
    refine Blind.bindNext? (Blind.ite Iff.rfl (fun _ => Blind.pure rfl) fun _ => Blind.fail rfl)
      fun p => Blind.ite Iff.rfl (fun _ => Blind.bindBack p (Blind.pure rfl)) fun _ => ?_
    exact Blind.bind (h p st) ih

theorem item_blind {σ τ : Type} {f : σ → τ} (eof : Bool) {step : CodePair → σ → Rd σ}
    {step' : CodePair → τ → Rd τ} (h : ∀ p st, Blind f (step p st) (step' p.strip (f st))) (st : σ) :
    Blind f (Rd.withFuel fun fuel => itemLoop eof step fuel st)
      (Rd.withFuel fun fuel => itemLoop eof step' fuel (f st)) :=
  Blind.withFuel fun k => itemLoop_blind eof h k st

theorem entryApply_blind {ds : List Decl} (arms : List (Arm ds)) (h : ∀ a ∈ arms, a.act.Blind)
    (p : CodePair) (it : Entry ds) :
    Blind Entry.strip (Entry.apply arms p it) (Entry.apply arms p.strip it.strip) := by
  unfold Entry.apply
  refine Blind.ite Iff.rfl (fun _ => ?_) fun _ => Blind.ite Iff.rfl (fun _ => ?_) fun _ => ?_
  · exact Blind.bindLift (Like.assertString p) fun s => Blind.bind (extGroup_blind s _ _) fun g =>
      Blind.pure (by simp [Entry.strip])
  · exact Blind.bindLift (Like.assertString p) fun s => Blind.bind (xdata_blind s) fun g =>
      Blind.pure rfl
  · exact Blind.bindLift (Like.applyPair arms h _ p) fun s => Blind.pure rfl

end Dxf
