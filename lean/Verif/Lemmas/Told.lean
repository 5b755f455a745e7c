import Verif.Spec.Places
import Verif.Lemmas.NiceFile
import Verif.Lemmas.Cut

/-! Errors of readers are justified by what was read. -/

namespace Dxf

/-- The error of a computation, if there is one, is justified. -/
def Fair {α : Type} (S : Stream) (x : Except DxfErr α) : Prop := ∀ e, x = .error e → Blamed S e

/-- A pair of the stream. -/
def At (S : Stream) (p : CodePair) : Prop := some (.ok p) ∈ S

theorem At.blamed {S : Stream} {p : CodePair} (hp : At S p) {e : DxfErr} (h : e.About p) :
    Blamed S e := .inr (.inl ⟨p, hp, h⟩)

theorem blamed_none {S : Stream} {e : DxfErr} (h : e.place = none) : Blamed S e := .inr (.inr h)

namespace Fair

variable {α β γ : Type} {S : Stream}

theorem ok {a : α} : Fair S (.ok a : Except DxfErr α) := fun e h => by cases h
theorem pure {a : α} : Fair S (Pure.pure a : Except DxfErr α) := fun e h => by cases h
theorem error {e : DxfErr} (h : Blamed S e) : Fair S (.error e : Except DxfErr α) := fun e' h' => by
  cases h'; exact h

theorem map {h : α → β} {x : Except DxfErr α} (hx : Fair S x) : Fair S (x.map h) := by
  cases x
  · exact fun e h => hx e (by cases h; rfl)
  · exact ok

theorem bind {x : Except DxfErr α} {k : α → Except DxfErr β} (hx : Fair S x)
    (hk : ∀ a, Fair S (k a)) : Fair S (x >>= k) := by
  cases x
  · exact fun e h => hx e (by cases h; rfl)
  · exact hk _

theorem ite {c : Prop} [Decidable c] {a b : Except DxfErr α} (ha : Fair S a) (hb : Fair S b) :
    Fair S (if c then a else b) := by
  by_cases hc : c
  · rw [if_pos hc]; exact ha
  · rw [if_neg hc]; exact hb

theorem panics {x : Except DxfErr α} (h : OnlyPanics x) : Fair S x := fun e he => by
  cases h e he; exact blamed_none rfl

end Fair

/-- Only items of the first stream. -/
def WithinStream (S s : Stream) : Prop := ∀ it ∈ s, it ∈ S

/-- A reader of items of `S` gives justified errors and leaves items of `S`. -/
def Tells {α : Type} (S : Stream) (r : Rd α) : Prop :=
  ∀ s, WithinStream S s → Fair S (r s).1 ∧ WithinStream S (r s).2

namespace Tells

variable {α β γ : Type} {S : Stream}

theorem pure {a : α} : Tells S (Pure.pure a : Rd α) := fun _ hs => ⟨Fair.ok, hs⟩

theorem fail {e : DxfErr} (h : Blamed S e) : Tells S (Rd.fail e : Rd α) :=
  fun _ hs => ⟨Fair.error h, hs⟩

theorem stop {e : DxfErr} (h : e.place = none) : Tells S (Rd.fail e : Rd α) :=
  fail (blamed_none h)

theorem lift {x : Except DxfErr α} (h : Fair S x) : Tells S (Rd.lift x) := fun _ hs => ⟨h, hs⟩

theorem bind {m : Rd α} {k : α → Rd β} (hm : Tells S m) (hk : ∀ a, Tells S (k a)) :
    Tells S (m >>= k) := by
  intro s hs
  have h := hm s hs
  rw [Rd.run_bind]
  generalize m s = a at h ⊢
  obtain ⟨x, t⟩ := a
  cases x with
  | error e => exact ⟨fun e' he => h.1 e' (by cases he; rfl), h.2⟩
  | ok a => exact hk a t h.2

theorem putBack {p : CodePair} (hp : At S p) : Tells S (Rd.putBack p) :=
  fun _ hs => ⟨Fair.ok, List.forall_mem_cons.mpr ⟨hp, hs⟩⟩

theorem withFuel {r : Nat → Rd α} (h : ∀ k, Tells S (r k)) : Tells S (Rd.withFuel r) := by
  intro s hs
  rw [Rd.run_withFuel]
  exact h _ s hs

theorem ite {c : Prop} [Decidable c] {a b : Rd α} (ha : c → Tells S a) (hb : ¬ c → Tells S b) :
    Tells S (if c then a else b) := by
  by_cases hc : c
  · rw [if_pos hc]; exact ha hc
  · rw [if_neg hc]; exact hb hc

/-- A look at the next pair. -/
theorem bindNext? {k : Option CodePair → Rd β} (h0 : Tells S (k none))
    (h1 : ∀ p, At S p → Tells S (k (some p))) : Tells S (Rd.next? >>= k) := by
  intro s hs
  obtain ⟨h2, h3⟩ := Stream.next_suffix s
  rw [Rd.run_bind, Rd.next?]
  rcases hx : s.next with ⟨x, s'⟩
  rw [hx] at h2 h3
  have hw : WithinStream S s' := fun it h => hs _ (h2.subset h)
  rcases x with _ | (e | p)
  · exact h0 s' hw
  · exact ⟨Fair.error (.inl (hs _ ((h3 _ rfl).subset List.mem_cons_self))), hw⟩
  · exact h1 p (hs _ ((h3 _ rfl).subset List.mem_cons_self)) s' hw

/-- The next pair. -/
theorem bindNext {k : CodePair → Rd β} (h : ∀ p, At S p → Tells S (k p)) :
    Tells S (Rd.next >>= k) := by
  intro s hs
  obtain ⟨h2, h3⟩ := Stream.next_suffix s
  rw [Rd.run_bind, Rd.next]
  rcases hx : s.next with ⟨x, s'⟩
  rw [hx] at h2 h3
  have hw : WithinStream S s' := fun it h => hs _ (h2.subset h)
  rcases x with _ | (e | p)
  · exact ⟨Fair.error (blamed_none rfl), hw⟩
  · exact ⟨Fair.error (.inl (hs _ ((h3 _ rfl).subset List.mem_cons_self))), hw⟩
  · exact h p (hs _ ((h3 _ rfl).subset List.mem_cons_self)) s' hw

/-- Something computed. -/
theorem bindLift {x : Except DxfErr α} {k : α → Rd β} (hx : Fair S x) (h : ∀ a, Tells S (k a)) :
    Tells S (Rd.lift x >>= k) := bind (lift hx) h

theorem bindBack {p : CodePair} (hp : At S p) {k : Unit → Rd β} (h : Tells S (k ())) :
    Tells S (Rd.putBack p >>= k) := bind (putBack hp) fun _ => h

end Tells

/-! ### Values -/

namespace Fair

variable {S : Stream} {p : CodePair}

theorem assertBool (hp : At S p) : Fair S p.assertBool := by
  rcases p with ⟨c, v, o⟩; cases v <;> first | exact ok | exact error (hp.blamed rfl)
theorem assertI64 (hp : At S p) : Fair S p.assertI64 := by
  rcases p with ⟨c, v, o⟩; cases v <;> first | exact ok | exact error (hp.blamed rfl)
theorem assertI32 (hp : At S p) : Fair S p.assertI32 := by
  rcases p with ⟨c, v, o⟩; cases v <;> first | exact ok | exact error (hp.blamed rfl)
theorem assertI16 (hp : At S p) : Fair S p.assertI16 := by
  rcases p with ⟨c, v, o⟩; cases v <;> first | exact ok | exact error (hp.blamed rfl)
theorem assertF64 (hp : At S p) : Fair S p.assertF64 := by
  rcases p with ⟨c, v, o⟩; cases v <;> first | exact ok | exact error (hp.blamed rfl)
theorem assertString (hp : At S p) : Fair S p.assertString := by
  rcases p with ⟨c, v, o⟩; cases v <;> first | exact ok | exact error (hp.blamed rfl)
theorem assertBinary (hp : At S p) : Fair S p.assertBinary := by
  rcases p with ⟨c, v, o⟩; cases v <;> first | exact ok | exact error (hp.blamed rfl)

theorem parseHexLoop (hp : At S p) (s : Str) : ∀ b n, Fair S (Dxf.parseHexLoop p.offset b n s) := by
  induction s with
  | nil => exact fun _ _ => ok
  | cons c s ih =>
    intro b n
    unfold Dxf.parseHexLoop
    split
    · exact error (hp.blamed rfl)
    · rename_i v _
      cases b with
      | true =>
        have h := ih false n
        simp only [if_true]
        generalize Dxf.parseHexLoop p.offset false n s = x at h ⊢
        cases x
        · exact fun e he => h e (by cases he; rfl)
        · exact ok
      | false => simpa using ih true v

theorem parseHexString (hp : At S p) (s : Str) : Fair S (Dxf.parseHexString s p.offset) :=
  parseHexLoop hp s _ _

theorem asHandle (hp : At S p) : Fair S p.asHandle := by
  unfold CodePair.asHandle
  have h := assertString hp
  generalize p.assertString = x at h ⊢
  cases x with
  | error e => exact fun e' he => h e' (by cases he; rfl)
  | ok s =>
    have h := parseHexString hp (trim s)
    dsimp only
    generalize Dxf.parseHexString (trim s) p.offset = x at h ⊢
    cases x with
    | error e => exact fun e' he => h e' (by cases he; rfl)
    | ok b => exact ok

/-! ### Records -/

theorem ofDouble (v : F64) : OnlyPanics (Date.ofDouble v) := by
  unfold Date.ofDouble
  split
  · exact OnlyPanics.ok
  · dsimp only
    split
    · exact OnlyPanics.panic
    · split
      · exact OnlyPanics.panic
      · split
        · split
          · exact OnlyPanics.panic
          · exact OnlyPanics.ok
        · exact OnlyPanics.ok

theorem rconv {t : Ty} (c : RConv t) (hp : At S p) : Fair S (c.read p) := by
  cases c
  case handle => exact asHandle hp
  case date =>
    have h := assertF64 hp
    change Fair S (match p.assertF64 with
      | .ok v => Date.ofDouble v
      | .error e => .error e)
    generalize p.assertF64 = x at h ⊢
    cases x
    · exact fun e' he => h e' (by cases he; rfl)
    · exact panics (ofDouble _)
  all_goals first
    | exact assertBool hp
    | exact assertI64 hp
    | exact assertI32 hp
    | exact assertI16 hp
    | exact assertF64 hp
    | exact assertString hp
    | exact assertBinary hp
    | exact map (assertBool hp)
    | exact map (assertI32 hp)
    | exact map (assertI16 hp)
    | exact map (assertF64 hp)
    | exact map (assertString hp)

theorem setField (l : LwVertex) (hp : At S p) (f : LwField) : Fair S (l.setField p f) := by
  cases f <;> first
    | exact map (assertF64 hp)
    | exact map (assertI32 hp)

theorem fread {t : Ty} (c : FRead t) (old : t.den) (hp : At S p) : Fair S (c.apply old p) := by
  cases c
  case set c => exact rconv c hp
  case push c => exact map (rconv c hp)
  case axis => exact map (assertF64 hp)
  case pushAxis => exact map (assertF64 hp)
  case lwNew => exact map (assertF64 hp)
  case lwSet f =>
    have h := setField LwVertex.dflt hp f
    change Fair S (match LwVertex.dflt.setField p f with
      | .error e => .error e
      | .ok _ =>
        match List.getLast? old with
        | none => .error .unexpectedEmptySet
        | some l => (l.setField p f).map fun l' => List.append (List.dropLast old) [l'])
    generalize LwVertex.dflt.setField p f = x at h ⊢
    cases x
    · exact fun e' he => h e' (by cases he; rfl)
    · dsimp only
      split
      · exact error (blamed_none rfl)
      · exact map (setField _ hp f)

end Fair

/-- An arm blames the pair it is given. -/
def Act.Fair {ds : List Decl} : Act ds → Prop
  | .on _ _ => True
  | .custom _ f => ∀ S r p, At S p → Dxf.Fair S (f r p)

theorem Fair.act {S : Stream} {p : CodePair} {ds : List Decl} (a : Act ds) (ha : a.Fair) (r : Rec ds)
    (hp : At S p) : Fair S (a.apply r p) := by
  cases a with
  | on i act => exact Fair.map (Fair.fread act _ hp)
  | custom l f => exact ha S r p hp

theorem Fair.applyPair {S : Stream} {p : CodePair} {ds : List Decl} (arms : List (Arm ds))
    (h : ∀ a ∈ arms, a.act.Fair) (r : Rec ds) (hp : At S p) : Fair S (Dxf.applyPair arms r p) := by
  unfold Dxf.applyPair
  split
  · rename_i a ha
    exact Fair.act _ (h _ (List.mem_of_find?_eq_some ha)) r hp
  · exact Fair.ok

theorem fair_of_on {ds : List Decl} (arms : List (Arm ds))
    (h : (arms.all fun a => match a.act with | .on _ _ => true | .custom _ _ => false) = true) :
    ∀ a ∈ arms, a.act.Fair := by
  intro a ha
  have := List.all_eq_true.mp h a ha
  cases hact : a.act with
  | on i c => trivial
  | custom l f => rw [hact] at this; simp at this

/-! ### Entries -/

variable {S : Stream}

theorem readExtItems_tells (fuel : Nat) : Tells S (readExtItems fuel) := by
  induction fuel with
  | zero => exact Tells.stop rfl
  | succ fuel ih =>
    unfold readExtItems
    refine Tells.bindNext fun p hp => Tells.ite (fun _ => ?_) fun _ => ?_
    · refine Tells.bindLift (Fair.assertString hp) fun s => ?_
      split
      · exact Tells.bind ih fun a => Tells.bind ih fun b => Tells.pure
      · exact Tells.ite (fun _ => Tells.pure) fun _ => Tells.fail (hp.blamed rfl)
    · exact Tells.bind ih fun b => Tells.pure

theorem extGroup_tells (s : Str) {p : CodePair} (hp : At S p) : Tells S (ExtGroup.read s p.offset) := by
  unfold ExtGroup.read
  split
  · exact Tells.withFuel fun _ => Tells.bind (readExtItems_tells _) fun _ => Tells.pure
  · exact Tells.fail (hp.blamed rfl)

theorem readDouble_tells (c : Int) : Tells S (XDataItem.readDouble c) :=
  Tells.bindNext fun p hp => Tells.ite (fun _ => Tells.lift (Fair.assertF64 hp)) fun _ =>
    Tells.fail (hp.blamed ⟨rfl, rfl⟩)

theorem readPoint_tells (x : F64) (c : Int) : Tells S (XDataItem.readPoint x c) :=
  Tells.bind (readDouble_tells _) fun _ => Tells.bind (readDouble_tells _) fun _ => Tells.pure

theorem readItem_tells {m : Rd (List XDataItem)} (h : Tells S m) {p : CodePair} (hp : At S p) :
    Tells S (XDataItem.readItem m p) := by
  unfold XDataItem.readItem
  repeat' first
    | refine Tells.ite (fun _ => ?_) fun _ => ?_
    | exact Tells.bindLift (Fair.assertString hp) fun _ => Tells.pure
    | exact Tells.bindLift (Fair.assertF64 hp) fun _ => Tells.pure
    | exact Tells.bindLift (Fair.assertI16 hp) fun _ => Tells.pure
    | exact Tells.bindLift (Fair.assertI32 hp) fun _ => Tells.pure
    | exact Tells.bindLift (Fair.asHandle hp) fun _ => Tells.pure
    | exact Tells.bindLift (Fair.assertF64 hp) fun _ => Tells.bind (readPoint_tells _ _) fun _ =>
        Tells.pure
    | exact Tells.bindLift (Fair.assertF64 hp) fun _ => Tells.bind (readDouble_tells _) fun _ =>
        Tells.bind (readDouble_tells _) fun _ => Tells.pure
    | exact Tells.bindLift (Fair.assertString hp) fun _ =>
        Tells.bindLift (Fair.parseHexString hp _) fun _ => Tells.pure
    | exact Tells.bind h fun _ => Tells.pure
    | exact Tells.fail (hp.blamed ⟨rfl, rfl⟩)

theorem readGroup_tells (fuel : Nat) : Tells S (XDataItem.readGroup fuel) := by
  induction fuel with
  | zero => exact Tells.stop rfl
  | succ fuel ih =>
    unfold XDataItem.readGroup
    refine Tells.bindNext fun p hp => Tells.ite (fun _ => Tells.fail (hp.blamed rfl)) fun _ => ?_
    have hj : ∀ b : Bool, Tells S
        (if b then (pure [] : Rd (List XDataItem)) else do
          let i ← XDataItem.readItem (XDataItem.readGroup fuel) p
          let is ← XDataItem.readGroup fuel
          return i :: is) := fun b =>
      Tells.ite (fun _ => Tells.pure) fun _ => Tells.bind (readItem_tells ih hp)
        fun _ => Tells.bind ih fun _ => Tells.pure
    refine Tells.ite (fun _ => ?_) fun _ => ?_
    · exact Tells.bindLift (Fair.map (Fair.assertString hp)) hj
    · exact hj false

theorem xdataItems_tells (fuel : Nat) : Tells S (XData.readItems fuel) := by
  induction fuel with
  | zero => exact Tells.stop rfl
  | succ fuel ih =>
    unfold XData.readItems
    refine Tells.bindNext? Tells.pure fun p hp => Tells.ite
      (fun _ => Tells.bindBack hp Tells.pure) fun _ => Tells.ite
      (fun _ => Tells.bindBack hp Tells.pure) fun _ => ?_
    exact Tells.bind (readItem_tells (readGroup_tells _) hp) fun _ => Tells.bind ih fun _ =>
      Tells.pure

theorem xdata_tells (s : Str) : Tells S (XData.read s) :=
  Tells.withFuel fun _ => Tells.bind (xdataItems_tells _) fun _ => Tells.pure

theorem itemLoop_tells {σ : Type} (eof : Bool) {step : CodePair → σ → Rd σ}
    (h : ∀ p st, At S p → Tells S (step p st)) (fuel : Nat) :
    ∀ st, Tells S (itemLoop eof step fuel st) := by
  induction fuel with
  | zero => exact fun _ => Tells.stop rfl
  | succ fuel ih =>
    intro st
    unfold itemLoop
    refine Tells.bindNext? (Tells.ite (fun _ => Tells.pure) fun _ => Tells.stop rfl)
      fun p hp => Tells.ite (fun _ => Tells.bindBack hp Tells.pure) fun _ => ?_
    exact Tells.bind (h p st hp) ih

theorem item_tells {σ : Type} (eof : Bool) {step : CodePair → σ → Rd σ}
    (h : ∀ p st, At S p → Tells S (step p st)) (st : σ) :
    Tells S (Rd.withFuel fun fuel => itemLoop eof step fuel st) :=
  Tells.withFuel fun k => itemLoop_tells eof h k st

theorem entryApply_tells {ds : List Decl} (arms : List (Arm ds)) (h : ∀ a ∈ arms, a.act.Fair)
    {p : CodePair} (hp : At S p) (it : Entry ds) : Tells S (Entry.apply arms p it) := by
  unfold Entry.apply
  refine Tells.ite (fun _ => ?_) fun _ => Tells.ite (fun _ => ?_) fun _ => ?_
  · exact Tells.bindLift (Fair.assertString hp) fun s => Tells.bind (extGroup_tells s hp) fun g =>
      Tells.pure
  · exact Tells.bindLift (Fair.assertString hp) fun s => Tells.bind (xdata_tells s) fun g =>
      Tells.pure
  · exact Tells.bindLift (Fair.applyPair arms h _ hp) fun s => Tells.pure

end Dxf
