import Verif.Spec.Strip
import Verif.Lemmas.Rd

/-! What readers do does not depend on the places of the pairs. -/

namespace Dxf

/-- Only panics and fuel are told apart from other errors. -/
def DxfErr.sort : DxfErr → DxfErr
  | .panic => .panic
  | .outOfFuel => .outOfFuel
  | _ => .unexpectedEndOfInput

/-- The same results, up to `f`; the same sort of errors. -/
def Like {α β : Type} (f : α → β) : Except DxfErr α → Except DxfErr β → Prop
  | .ok a, .ok b => b = f a
  | .error e, .error e' => e'.sort = e.sort
  | _, _ => False

namespace Like

variable {α β γ δ : Type} {f : α → β} {g : γ → δ}

theorem rfl' {x : Except DxfErr α} : Like id x x := by cases x <;> exact rfl

theorem map {h : α → γ} {h' : β → δ} {x : Except DxfErr α} {y : Except DxfErr β} (hx : Like f x y)
    (hh : ∀ a, h' (f a) = g (h a)) : Like g (x.map h) (y.map h') := by
  cases x <;> cases y
  · exact hx
  · exact hx.elim
  · exact hx.elim
  · cases (show _ = _ from hx)
    exact hh _

theorem bind {x : Except DxfErr α} {y : Except DxfErr β} {k : α → Except DxfErr γ}
    {k' : β → Except DxfErr δ} (hx : Like f x y) (hk : ∀ a, Like g (k a) (k' (f a))) :
    Like g (x >>= k) (y >>= k') := by
  cases x <;> cases y
  · exact hx
  · exact hx.elim
  · exact hx.elim
  · cases (show _ = _ from hx)
    exact hk _

theorem ite {c c' : Prop} [Decidable c] [Decidable c'] {a b : Except DxfErr α}
    {a' b' : Except DxfErr β} (h : c' ↔ c) (ha : Like f a a') (hb : Like f b b') :
    Like f (if c then a else b) (if c' then a' else b') := by
  by_cases hc : c
  · rw [if_pos hc, if_pos (h.mpr hc)]; exact ha
  · rw [if_neg hc, if_neg fun h' => hc (h.mp h')]; exact hb

theorem pure {a : α} {b : β} (h : b = f a) : Like f (Pure.pure a) (Pure.pure b) := h

theorem foldlM {τ τ' σ σ' : Type} {t : τ → τ'} {u : σ → σ'} {k : σ → τ → Except DxfErr σ}
    {k' : σ' → τ' → Except DxfErr σ'} (hk : ∀ s x, Like u (k s x) (k' (u s) (t x))) (l : List τ)
    (s : σ) : Like u (l.foldlM k s) ((l.map t).foldlM k' (u s)) := by
  induction l generalizing s with
  | nil => exact rfl
  | cons x l ih =>
    rw [List.map_cons, List.foldlM_cons, List.foldlM_cons]
    exact bind (hk s x) fun s' => ih s'

end Like

/-- An item without its place. -/
def Item.strip : Item → Item
  | some (.ok p) => some (.ok p.strip)
  | some (.error e) => some (.error e.sort)
  | none => none

/-- A stream without places. -/
def Stream.strip (s : Stream) : Stream := s.map Item.strip

/-- The second reader does on the stream without places what the first does on the stream. -/
def Blind {α β : Type} (f : α → β) (r : Rd α) (r' : Rd β) : Prop :=
  ∀ s : Stream, Like f (r s).1 (r' (Stream.strip s)).1 ∧
    (r' (Stream.strip s)).2 = Stream.strip (r s).2

theorem sort_sort (e : DxfErr) : e.sort.sort = e.sort := by cases e <;> rfl

theorem next_strip (s : Stream) : (Stream.strip s).next = (s.next.1.strip, Stream.strip s.next.2) := by
  induction s with
  | nil => rfl
  | cons x s ih =>
    have hc : isComment x.strip = isComment x := by
      rcases x with _ | _ | p <;> rfl
    unfold Stream.strip at ih ⊢
    rw [List.map_cons, Stream.next, Stream.next, hc]
    cases isComment x with
    | true => simpa using ih
    | false => rfl

namespace Blind

variable {α β γ δ : Type} {f : α → β} {g : γ → δ}

theorem pure {a : α} {b : β} (h : b = f a) : Blind f (Pure.pure a) (Pure.pure b) :=
  fun _ => ⟨h, rfl⟩

theorem fail {e e' : DxfErr} (h : e'.sort = e.sort) : Blind f (Rd.fail e) (Rd.fail e') :=
  fun _ => ⟨h, rfl⟩

theorem lift {x : Except DxfErr α} {y : Except DxfErr β} (h : Like f x y) :
    Blind f (Rd.lift x) (Rd.lift y) := fun _ => ⟨h, rfl⟩

theorem bind {m : Rd α} {m' : Rd β} {k : α → Rd γ} {k' : β → Rd δ} (hm : Blind f m m')
    (hk : ∀ a, Blind g (k a) (k' (f a))) : Blind g (m >>= k) (m' >>= k') := by
  intro s
  have h := hm s
  rw [Rd.run_bind, Rd.run_bind]
  generalize m s = a at h ⊢
  generalize m' (Stream.strip s) = b at h ⊢
  obtain ⟨x, t⟩ := a
  obtain ⟨y, t'⟩ := b
  obtain ⟨h1, h2⟩ := h
  dsimp only at h1 h2 ⊢
  cases x <;> cases y
  · exact ⟨h1, h2⟩
  · exact h1.elim
  · exact h1.elim
  · cases (show _ = _ from h1)
    cases (show _ = _ from h2)
    exact hk _ t

theorem next : Blind CodePair.strip Rd.next Rd.next := by
  intro s
  unfold Rd.next
  rw [next_strip]
  rcases s.next with ⟨_ | e | p, t⟩
  · exact ⟨rfl, rfl⟩
  · exact ⟨sort_sort e, rfl⟩
  · exact ⟨rfl, rfl⟩

theorem next? : Blind (Option.map CodePair.strip) Rd.next? Rd.next? := by
  intro s
  unfold Rd.next?
  rw [next_strip]
  rcases s.next with ⟨_ | e | p, t⟩
  · exact ⟨rfl, rfl⟩
  · exact ⟨sort_sort e, rfl⟩
  · exact ⟨rfl, rfl⟩

theorem putBack (p : CodePair) : Blind id (Rd.putBack p) (Rd.putBack p.strip) :=
  fun _ => ⟨rfl, rfl⟩

theorem withFuel {r : Nat → Rd α} {r' : Nat → Rd β} (h : ∀ k, Blind f (r k) (r' k)) :
    Blind f (Rd.withFuel r) (Rd.withFuel r') := by
  intro s
  have hl : (Stream.strip s).length = s.length := List.length_map ..
  rw [Rd.run_withFuel, Rd.run_withFuel, hl]
  exact h _ s

theorem ite {c c' : Prop} [Decidable c] [Decidable c'] {a b : Rd α} {a' b' : Rd β} (h : c' ↔ c)
    (ha : c → Blind f a a') (hb : ¬ c → Blind f b b') :
    Blind f (if c then a else b) (if c' then a' else b') := by
  by_cases hc : c
  · rw [if_pos hc, if_pos (h.mpr hc)]; exact ha hc
  · rw [if_neg hc, if_neg fun h' => hc (h.mp h')]; exact hb hc

/-- A look at the next pair. -/
theorem bindNext? {k : Option CodePair → Rd γ} {k' : Option CodePair → Rd δ} (h0 : Blind g (k none) (k' none))
    (h1 : ∀ p, Blind g (k (some p)) (k' (some p.strip))) :
    Blind g (Rd.next? >>= k) (Rd.next? >>= k') := bind next? fun a => by
  cases a with
  | none => exact h0
  | some p => exact h1 p

/-- The next pair. -/
theorem bindNext {k : CodePair → Rd γ} {k' : CodePair → Rd δ}
    (h : ∀ p, Blind g (k p) (k' p.strip)) : Blind g (Rd.next >>= k) (Rd.next >>= k') := bind next h

/-- Something computed. -/
theorem bindLift {x : Except DxfErr α} {y : Except DxfErr α} {k : α → Rd γ} {k' : α → Rd δ}
    (hx : Like id x y) (h : ∀ a, Blind g (k a) (k' a)) :
    Blind g (Rd.lift x >>= k) (Rd.lift y >>= k') := bind (lift hx) h

theorem bindBack (p : CodePair) {k : Unit → Rd γ} {k' : Unit → Rd δ} (h : Blind g (k ()) (k' ())) :
    Blind g (Rd.putBack p >>= k) (Rd.putBack p.strip >>= k') := bind (putBack p) fun _ => h

theorem bindId {m m' : Rd α} {k : α → Rd γ} {k' : α → Rd δ} (hm : Blind id m m')
    (hk : ∀ a, Blind g (k a) (k' a)) : Blind g (m >>= k) (m' >>= k') := bind hm hk

end Blind

/-! ### Values -/

namespace Like

variable (p : CodePair)

theorem assertBool : Like id p.assertBool p.strip.assertBool := by
  rcases p with ⟨c, v, o⟩; cases v <;> exact rfl
theorem assertI64 : Like id p.assertI64 p.strip.assertI64 := by
  rcases p with ⟨c, v, o⟩; cases v <;> exact rfl
theorem assertI32 : Like id p.assertI32 p.strip.assertI32 := by
  rcases p with ⟨c, v, o⟩; cases v <;> exact rfl
theorem assertI16 : Like id p.assertI16 p.strip.assertI16 := by
  rcases p with ⟨c, v, o⟩; cases v <;> exact rfl
theorem assertF64 : Like id p.assertF64 p.strip.assertF64 := by
  rcases p with ⟨c, v, o⟩; cases v <;> exact rfl
theorem assertString : Like id p.assertString p.strip.assertString := by
  rcases p with ⟨c, v, o⟩; cases v <;> exact rfl
theorem assertBinary : Like id p.assertBinary p.strip.assertBinary := by
  rcases p with ⟨c, v, o⟩; cases v <;> exact rfl

theorem parseHexLoop (o o' : Nat) (s : Str) : ∀ b n,
    Like id (Dxf.parseHexLoop o b n s) (Dxf.parseHexLoop o' b n s) := by
  induction s with
  | nil => exact fun _ _ => rfl
  | cons c s ih =>
    intro b n
    unfold Dxf.parseHexLoop
    split
    · exact rfl
    · rename_i v _
      cases b with
      | true =>
        have h := ih false n
        simp only [if_true]
        generalize Dxf.parseHexLoop o false n s = x at h ⊢
        generalize Dxf.parseHexLoop o' false n s = y at h ⊢
        cases x <;> cases y
        · exact h
        · exact h.elim
        · exact h.elim
        · cases (show _ = _ from h)
          exact rfl
      | false => simpa using ih true v

theorem parseHexString (o o' : Nat) (s : Str) :
    Like id (Dxf.parseHexString s o) (Dxf.parseHexString s o') := parseHexLoop o o' s _ _

theorem asHandle : Like id p.asHandle p.strip.asHandle := by
  rcases p with ⟨c, v, o⟩
  cases v
  case str s =>
    have h := parseHexString o 0 (trim s)
    change Like id (match Dxf.parseHexString (trim s) o with
      | .error e => .error e
      | .ok bs => .ok (readU64BE (padTo8 bs))) (match Dxf.parseHexString (trim s) 0 with
      | .error e => .error e
      | .ok bs => .ok (readU64BE (padTo8 bs)))
    generalize Dxf.parseHexString (trim s) o = x at h ⊢
    generalize Dxf.parseHexString (trim s) 0 = y at h ⊢
    cases x <;> cases y
    · exact h
    · exact h.elim
    · exact h.elim
    · cases (show _ = _ from h)
      exact rfl
  all_goals exact rfl

end Like

/-! ### Records -/

theorem Like.rconv {t : Ty} (c : RConv t) (p : CodePair) : Like id (c.read p) (c.read p.strip) := by
  cases c
  case handle => exact Like.asHandle p
  case date =>
    have h := Like.assertF64 p
    change Like id (match p.assertF64 with
      | .ok v => Date.ofDouble v
      | .error e => .error e) (match p.strip.assertF64 with
      | .ok v => Date.ofDouble v
      | .error e => .error e)
    generalize p.assertF64 = x at h ⊢
    generalize p.strip.assertF64 = y at h ⊢
    cases x <;> cases y
    · exact h
    · exact h.elim
    · exact h.elim
    · cases (show _ = _ from h)
      exact Like.rfl'
  all_goals first
    | exact Like.assertBool p
    | exact Like.assertI64 p
    | exact Like.assertI32 p
    | exact Like.assertI16 p
    | exact Like.assertF64 p
    | exact Like.assertString p
    | exact Like.assertBinary p
    | exact Like.map (Like.assertBool p) fun _ => rfl
    | exact Like.map (Like.assertI32 p) fun _ => rfl
    | exact Like.map (Like.assertI16 p) fun _ => rfl
    | exact Like.map (Like.assertF64 p) fun _ => rfl
    | exact Like.map (Like.assertString p) fun _ => rfl

theorem Like.setField (l : LwVertex) (p : CodePair) (f : LwField) :
    Like id (l.setField p f) (l.setField p.strip f) := by
  cases f <;> first
    | exact Like.map (Like.assertF64 p) fun _ => rfl
    | exact Like.map (Like.assertI32 p) fun _ => rfl

theorem Like.fread {t : Ty} (c : FRead t) (old : t.den) (p : CodePair) :
    Like id (c.apply old p) (c.apply old p.strip) := by
  cases c
  case set c => exact Like.rconv c p
  case push c => exact Like.map (Like.rconv c p) fun _ => rfl
  case axis => exact Like.map (Like.assertF64 p) fun _ => rfl
  case pushAxis => exact Like.map (Like.assertF64 p) fun _ => rfl
  case lwNew => exact Like.map (Like.assertF64 p) fun _ => rfl
  case lwSet f =>
    have h := Like.setField LwVertex.dflt p f
    change Like id (match LwVertex.dflt.setField p f with
      | .error e => .error e
      | .ok _ =>
        match List.getLast? old with
        | none => .error .unexpectedEmptySet
        | some l => (l.setField p f).map fun l' => List.append (List.dropLast old) [l'])
      (match LwVertex.dflt.setField p.strip f with
      | .error e => .error e
      | .ok _ =>
        match List.getLast? old with
        | none => .error .unexpectedEmptySet
        | some l => (l.setField p.strip f).map fun l' => List.append (List.dropLast old) [l'])
    generalize LwVertex.dflt.setField p f = x at h ⊢
    generalize LwVertex.dflt.setField p.strip f = y at h ⊢
    cases x <;> cases y
    · exact h
    · exact h.elim
    · exact h.elim
    · dsimp only
      split
      · exact rfl
      · exact Like.map (Like.setField _ p f) fun _ => rfl

/-- What an arm does does not depend on the place of the pair. -/
def Act.Blind {ds : List Decl} : Act ds → Prop
  | .on _ _ => True
  | .custom _ f => ∀ r p, Like id (f r p) (f r (CodePair.strip p))

theorem Like.act {ds : List Decl} (a : Act ds) (ha : a.Blind) (r : Rec ds) (p : CodePair) :
    Like id (a.apply r p) (a.apply r p.strip) := by
  cases a with
  | on i act => exact Like.map (Like.fread act _ p) fun _ => rfl
  | custom l f => exact ha r p

theorem Like.applyPair {ds : List Decl} (arms : List (Arm ds)) (h : ∀ a ∈ arms, a.act.Blind)
    (r : Rec ds) (p : CodePair) : Like id (Dxf.applyPair arms r p) (Dxf.applyPair arms r p.strip) := by
  unfold Dxf.applyPair
  rw [show p.strip.code = p.code from rfl]
  split
  · rename_i a ha
    exact Like.act _ (h _ (List.mem_of_find?_eq_some ha)) r p
  · exact rfl

theorem blind_of_on {ds : List Decl} (arms : List (Arm ds))
    (h : (arms.all fun a => match a.act with | .on _ _ => true | .custom _ _ => false) = true) :
    ∀ a ∈ arms, a.act.Blind := by
  intro a ha
  have := List.all_eq_true.mp h a ha
  cases hact : a.act with
  | on i c => trivial
  | custom l f => rw [hact] at this; simp at this

end Dxf
