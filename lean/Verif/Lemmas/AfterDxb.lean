import Verif.Lemmas.AfterBytes
import Verif.Model.Dxb

/-! DXB files with something after their end. -/

namespace Dxf

/-- The same reader with more bytes behind what it has. -/
def DxbReader.more (s : DxbReader) (m : List Byte) : DxbReader := { s with bytes := s.bytes ++ m }

namespace Dxb

/-- What succeeds does the same with more bytes behind. -/
def Goes {α : Type} (f : DxbM α) : Prop :=
  ∀ s a t, s.later = [] → f s = .ok (a, t) → t.later = [] ∧ ∀ m, f (s.more m) = .ok (a, t.more m)

variable {α β : Type}

theorem dxb_bind (f : DxbM α) (g : α → DxbM β) (s : DxbReader) :
    (f >>= g) s = match f s with
      | .ok (a, t) => g a t
      | .error e => .error e := by
  show (f s >>= fun x => g x.1 x.2) = _
  cases f s <;> rfl

theorem Goes.pure (a : α) : Goes (Pure.pure a : DxbM α) := by
  intro s b t hs h
  cases h
  exact ⟨hs, fun _ => rfl⟩

theorem Goes.fail (e : DxfErr) : Goes (fail e : DxbM α) := by
  intro s b t hs h
  cases h

theorem Goes.bind {f : DxbM α} {g : α → DxbM β} (hf : Goes f) (hg : ∀ a, Goes (g a)) :
    Goes (f >>= g) := by
  intro s b t hs h
  rw [dxb_bind] at h
  cases h1 : f s with
  | error e => rw [h1] at h; cases h
  | ok x =>
    rw [h1] at h
    obtain ⟨h2, h3⟩ := hf s x.1 x.2 hs h1
    obtain ⟨h4, h5⟩ := hg _ _ _ _ h2 h
    refine ⟨h4, fun m => ?_⟩
    rw [dxb_bind, h3 m]
    exact h5 m

theorem Goes.get {g : DxbReader → DxbM β} (hs : ∀ s m, g (s.more m) = g s) (hg : ∀ s, Goes (g s)) :
    Goes (MonadState.get >>= g) := by
  intro s b t h1 h
  obtain ⟨h2, h3⟩ := hg s s b t h1 h
  refine ⟨h2, fun m => ?_⟩
  have := h3 m
  rw [← hs s m] at this
  exact this

theorem Goes.modify {f : DxbReader → DxbReader} (hf : ∀ s m, f (s.more m) = (f s).more m)
    (hl : ∀ s, (f s).later = s.later) : Goes (modify f : DxbM PUnit) := by
  intro s b t h1 h
  cases h
  refine ⟨(hl s).trans h1, fun m => ?_⟩
  show Except.ok (_, f (s.more m)) = _
  rw [hf]

theorem goes_word (n : Nat) : Goes (word n) := by
  intro s a t hs h
  unfold word at h ⊢
  by_cases hn : n ≤ s.bytes.length
  · rw [if_pos hn] at h
    cases h
    refine ⟨hs, fun m => ?_⟩
    rw [if_pos (by unfold DxbReader.more; simp; omega)]
    unfold DxbReader.more
    dsimp only
    rw [List.take_append_of_le_length hn, List.drop_append_of_le_length hn]
  · rw [if_neg hn] at h; cases h

theorem goes_readString : Goes readString := by
  intro s a t hs h
  unfold readString at h ⊢
  split at h
  · cases h
  · rename_i v rest hr
    cases h
    refine ⟨hs, fun m => ?_⟩
    rcases readStringBin_more m s.bytes with ⟨e, he⟩ | he
    · rw [he] at hr; cases hr
    · unfold DxbReader.more
      dsimp only
      rw [he, hr]

theorem goes_readA : Goes readA :=
  .get (fun _ _ => rfl) fun _ => .bind (goes_word _) fun _ => .pure _

theorem goes_readN : Goes readN := by
  refine .get (fun _ _ => rfl) fun s => ?_
  split <;> exact .bind (goes_word _) fun _ => .pure _

theorem goes_readU : Goes readU :=
  .get (fun _ _ => rfl) fun _ => .bind (goes_word _) fun _ => .pure _

theorem goes_readW : Goes readW :=
  .get (fun _ _ => rfl) fun _ => .bind (goes_word _) fun _ => .pure _

theorem goes_readXy : Goes readXy :=
  .bind goes_readN fun _ => .bind goes_readN fun _ => .pure _

theorem goes_readXyz : Goes readXyz :=
  .bind goes_readN fun _ => .bind goes_readN fun _ => .bind goes_readN fun _ => .pure _

theorem goes_wrap (k : EName) (r : Rec k.decls) : Goes (wrap k r) :=
  .get (fun _ _ => rfl) fun _ => .pure _

theorem goes_last (p1 p2 : Point) : Goes (do
    modify fun s => { s with lastLinePoint := p2 }
    mkLine p1 p2 : DxbM Flat) :=
  .bind (.modify (fun _ _ => rfl) fun _ => rfl) fun _ => goes_wrap _ _

theorem goes_mkTrace (p1 p2 p3 p4 : Point) : Goes (mkTrace p1 p2 p3 p4) :=
  .bind (.modify (fun _ _ => rfl) fun _ => rfl) fun _ => goes_wrap _ _

theorem goes_readEntity {i : Nat} {r : DxbM Flat} (h : readEntity? i = some r) : Goes r := by
  have xy := fun {β : Type} {g : Point → DxbM β} (hg : ∀ a, Goes (g a)) => goes_readXy.bind hg
  have xyz := fun {β : Type} {g : Point → DxbM β} (hg : ∀ a, Goes (g a)) => goes_readXyz.bind hg
  unfold readEntity? at h
  split at h
  · cases h; exact xyz fun _ => xyz fun _ => goes_last _ _
  · cases h; exact xyz fun _ => xyz fun _ => goes_last _ _
  · cases h; exact xy fun _ => goes_wrap _ _
  · cases h; exact xy fun _ => goes_readN.bind fun _ => goes_wrap _ _
  · cases h
    exact xy fun _ => goes_readN.bind fun _ => goes_readA.bind fun _ => goes_readA.bind fun _ =>
      goes_wrap _ _
  · cases h; exact xy fun _ => xy fun _ => xy fun _ => xy fun _ => goes_mkTrace _ _ _ _
  · cases h; exact xy fun _ => xy fun _ => xy fun _ => xy fun _ => goes_wrap _ _
  · cases h; exact goes_wrap _ _
  · cases h; exact goes_readW.bind fun _ => goes_wrap _ _
  · cases h; exact xy fun _ => goes_wrap _ _
  · cases h; exact xyz fun _ => xyz fun _ => xyz fun _ => xyz fun _ => goes_wrap _ _
  · cases h
    exact xy fun _ => .get (fun _ _ => rfl) fun _ => goes_last _ _
  · cases h
    exact xy fun _ => xy fun _ => .get (fun _ _ => rfl) fun _ => goes_mkTrace _ _ _ _
  · cases h
    exact xyz fun _ => .get (fun _ _ => rfl) fun _ => goes_last _ _
  · cases h

theorem goes_updateVertex (f : Rec EName.vertex.decls → Rec EName.vertex.decls) (found : Found) :
    Goes (updateVertex f found) := by
  refine .get (fun _ _ => rfl) fun s => ?_
  split
  · exact .fail _
  · exact .pure _
  · exact .fail _

/-- Every arm but that of the scale factor, which does not fail at the end of the input. -/
theorem goes_readOther {i : Nat} {found : Found} {r : DxbM Found}
    (h : readOther? i found = some r) : Goes r ∨ ∀ s a t, s.later = [] → r s = .ok (a, t) →
      t.later = [] ∧ (t.bytes = [] ∨ ∀ m, r (s.more m) = .ok (a, t.more m)) := by
  unfold readOther? at h
  split at h
  · cases h
    exact .inl (goes_readW.bind fun _ => .bind (.modify (fun _ _ => rfl) fun _ => rfl)
      fun _ => .pure _)
  · cases h
    exact .inl (goes_readString.bind fun _ => .bind (.modify (fun _ _ => rfl) fun _ => rfl)
      fun _ => .pure _)
  · cases h
    refine .inr fun s a t hs h => ?_
    have e : ∀ s : DxbReader, (do
        let v ← readF
        modify fun s => { s with scaleFactor := v }
        return found : DxbM Found) s = match readF s with
          | .ok (v, t) => .ok (found, { t with scaleFactor := v })
          | .error e => .error e := by
      intro s
      rw [dxb_bind]
      cases readF s <;> rfl
    rw [e] at h
    unfold readF at h
    by_cases h8 : 8 ≤ s.bytes.length
    · rw [if_pos h8] at h
      cases h
      refine ⟨hs, .inr fun m => ?_⟩
      rw [e]
      unfold readF DxbReader.more
      rw [if_pos (by simp; omega)]
      dsimp only
      rw [List.take_append_of_le_length h8, List.drop_append_of_le_length h8]
    · rw [if_neg h8] at h
      cases h
      dsimp only
      rw [hs]
      exact ⟨rfl, .inl rfl⟩
  · cases h
    refine .inl (goes_readXy.bind fun _ => ?_)
    split
    · exact .pure _
    · exact .fail _
  · cases h
    exact .inl (goes_readU.bind fun _ => goes_updateVertex _ _)
  · cases h
    exact .inl (goes_readW.bind fun _ => .bind (.modify (fun _ _ => rfl) fun _ => rfl)
      fun _ => .pure _)
  · cases h
    exact .inl (goes_readN.bind fun _ => goes_readN.bind fun _ => goes_updateVertex _ _)
  · cases h

theorem loop_short {fuel : Nat} {found : Found} {s : DxbReader} (h : s.bytes = []) (x : Found × DxbReader) :
    loop fuel found s ≠ .ok x := by
  cases fuel with
  | zero => intro h; cases h
  | succ fuel =>
    intro hl
    have : loop (fuel + 1) found s = .error s.short := by
      unfold loop
      rw [dxb_bind]
      change (word 1 >>= _) s = _
      rw [dxb_bind]
      unfold word
      rw [if_neg (by rw [h]; simp)]
    rw [this] at hl
    cases hl

theorem loop_more (fuel : Nat) : ∀ (found : Found) (s : DxbReader) (r : Found) (t : DxbReader),
    s.later = [] → loop fuel found s = .ok (r, t) → ∀ m k, ∃ t',
      loop (fuel + k) found (s.more m) = .ok (r, t') := by
  induction fuel with
  | zero => intro _ _ _ _ _ h; cases h
  | succ fuel ih =>
    intro found s r t hs h m k
    rw [show fuel + 1 + k = (fuel + k) + 1 by omega]
    unfold loop at h ⊢
    rw [dxb_bind] at h ⊢
    change (word 1 >>= _) s = _ at h
    change ∃ t', (word 1 >>= _) (s.more m) = _
    rw [dxb_bind] at h ⊢
    cases hw : word 1 s with
    | error e => rw [hw] at h; cases h
    | ok x =>
      obtain ⟨item, s1⟩ := x
      obtain ⟨hs1, hm⟩ := goes_word 1 s item s1 hs hw
      rw [hm m]
      rw [hw] at h
      dsimp only at h ⊢
      by_cases h0 : item = 0
      · rw [if_pos h0] at h ⊢
        cases h
        exact ⟨_, rfl⟩
      rw [if_neg h0] at h ⊢
      cases he : readEntity? item with
      | some read =>
        rw [he] at h
        dsimp only at h ⊢
        rw [dxb_bind] at h ⊢
        cases hr : read s1 with
        | error e => rw [hr] at h; cases h
        | ok x =>
          obtain ⟨e, s2⟩ := x
          obtain ⟨hs2, hm2⟩ := goes_readEntity he s1 e s2 hs1 hr
          rw [hm2 m]
          rw [hr] at h
          exact ih _ _ _ _ hs2 h m k
      | none =>
        rw [he] at h
        dsimp only at h ⊢
        cases ho : readOther? item found with
        | none => rw [ho] at h; cases h
        | some read =>
          rw [ho] at h
          dsimp only at h ⊢
          rw [dxb_bind] at h ⊢
          cases hr : read s1 with
          | error e => rw [hr] at h; cases h
          | ok x =>
            obtain ⟨f, s2⟩ := x
            rw [hr] at h
            dsimp only at h
            have : s2.later = [] ∧ (s2.bytes = [] ∨ read (s1.more m) = .ok (f, s2.more m)) := by
              rcases goes_readOther ho with h1 | h1
              · obtain ⟨h2, h3⟩ := h1 s1 f s2 hs1 hr
                exact ⟨h2, .inr (h3 m)⟩
              · obtain ⟨h2, h3⟩ := h1 s1 f s2 hs1 hr
                exact ⟨h2, h3.imp_right fun h => h m⟩
            obtain ⟨hs2, h3 | h3⟩ := this
            · exact absurd h (loop_short h3 _)
            · rw [h3]
              exact ih _ _ _ _ hs2 h m k

theorem goes_expect (b : Byte) (n : Nat) : Goes (expect b n) := by
  refine (goes_word 1).bind fun v => ?_
  split
  · exact .pure _
  · exact .fail _

theorem items_more {s : DxbReader} {r : Found} {t : DxbReader} (hs : s.later = [])
    (h : items s = .ok (r, t)) (m : List Byte) : ∃ t', items (s.more m) = .ok (r, t') := by
  unfold items at h ⊢
  rw [dxb_bind] at h ⊢
  cases h1 : expect (byte 0x1A) 16 s with
  | error e => rw [h1] at h; cases h
  | ok x =>
    obtain ⟨⟨⟩, s1⟩ := x
    obtain ⟨hs1, hm1⟩ := goes_expect _ _ _ _ _ hs h1
    rw [hm1 m]
    rw [h1] at h
    dsimp only at h ⊢
    rw [dxb_bind] at h ⊢
    cases h2 : expect (byte 0) 17 s1 with
    | error e => rw [h2] at h; cases h
    | ok x =>
      obtain ⟨⟨⟩, s2⟩ := x
      obtain ⟨hs2, hm2⟩ := goes_expect _ _ _ _ _ hs1 h2
      rw [hm2 m]
      rw [h2] at h
      change loop (s2.size + 1) _ s2 = _ at h
      change ∃ t', loop ((s2.more m).size + 1) _ (s2.more m) = _
      rw [show (s2.more m).size + 1 = s2.size + 1 + m.length by
        unfold DxbReader.size DxbReader.more; simp; omega]
      exact loop_more _ _ _ _ _ hs2 h m _

end Dxb

/-- What stands after the end of a DXB file is ignored. -/
theorem Drawing.loadDxb_more {Img : Type} {h0 : Header} {order : List Str} {b : List Byte}
    {d : Drawing Img} (h : loadDxb h0 order b = .ok d) (m : List Byte) :
    loadDxb h0 order (b ++ m) = .ok d := by
  unfold loadDxb at h ⊢
  cases hi : Dxb.items (Dxb.reader b []) with
  | error e => rw [hi] at h; cases h
  | ok x =>
    obtain ⟨t', ht⟩ := Dxb.items_more rfl hi m
    rw [hi] at h
    rw [show Dxb.reader (b ++ m) [] = (Dxb.reader b []).more m from rfl, ht]
    exact h

theorem lineBytes_left (a : Bool) (m : List Byte) : ∀ (b : List Byte) (i : Nat) (skip : Bool),
    (lineBytes a i skip b).2 ≠ [] →
    lineBytes a i skip (b ++ m) =
      ((lineBytes a i skip b).1, (lineBytes a i skip b).2 ++ m) := by
  intro b
  induction b with
  | nil => intro i skip h; exact absurd rfl h
  | cons x b ih =>
    intro i skip h
    rw [List.cons_append]
    unfold lineBytes at h ⊢
    split
    · rename_i h1
      rw [if_pos h1] at h
      exact ih _ _ h
    · rename_i h1
      rw [if_neg h1] at h
      split
      · rename_i h2
        rw [if_pos h2] at h
        exact ih _ _ h
      · rename_i h2
        rw [if_neg h2] at h
        split
        · rfl
        · rename_i h3
          rw [if_neg h3] at h
          dsimp only at h ⊢
          rw [ih _ _ h]

theorem readLine_left (a : Bool) (enc : Enc) {b : List Byte} (h : (readLine a enc b).2 ≠ [])
    (m : List Byte) :
    readLine a enc (b ++ m) = ((readLine a enc b).1, (readLine a enc b).2 ++ m) := by
  have e : ∀ c, (readLine a enc c).2 = (lineBytes a 0 false c).2 := by
    intro c
    unfold readLine
    dsimp only
    cases decode enc (lineBytes a 0 false c).1 <;> rfl
  rw [e] at h
  have h1 := lineBytes_left a m b 0 false h
  unfold readLine
  dsimp only
  rw [h1]
  dsimp only
  cases decode enc (lineBytes a 0 false b).1 <;> rfl

end Dxf
