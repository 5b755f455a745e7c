import Verif.Lemmas.SafeObjects
import Verif.Lemmas.Reload

/-! Loading a harmless stream does not panic. -/

namespace Dxf

variable {room : Nat}

/-! ### The header -/

/-- The action is `pair.as_handle()?`. -/
def FRead.isHandle : {t : Ty} → FRead t → Bool
  | _, .set .handle => true
  | _, _ => false

/-- What the arms of the header variables do. -/
theorem headerVars_sane : ∀ h ∈ Header.vars, ∀ a ∈ h.arms, ∃ i c, a.act = .on i c ∧
    (i = 141 → h.name = str!"$HANDSEED" ∧ c.isHandle = true) ∧
    (c.undated = true ∨ h.name ∈ dateVariables) := by
  have hc : (Header.vars.all fun h => h.arms.all fun a =>
      match a.act with
      | .on i c => (i != 141 || (h.name == str!"$HANDSEED" && c.isHandle)) &&
        (c.undated || dateVariables.contains h.name)
      | .custom _ _ => false) = true := by decide +kernel
  intro h hm a ha
  have := List.all_eq_true.mp (List.all_eq_true.mp hc h hm) a ha
  cases hact : a.act with
  | custom l f => rw [hact] at this; simp at this
  | on i c =>
    rw [hact] at this
    refine ⟨i, c, rfl, ?_⟩
    simp only [Bool.and_eq_true, Bool.or_eq_true] at this
    refine ⟨fun hi => ?_, ?_⟩
    · rcases this.1 with h1 | h1
      · simp [hi] at h1
      · exact ⟨eq_of_beq h1.1, h1.2⟩
    · rcases this.2 with h1 | h1
      · exact .inl h1
      · exact .inr (by simpa using h1)

theorem handle_of_set (c : FRead .handle) (hc : c.isHandle = true) (old v : Handle) (p : CodePair)
    (h : c.apply old p = .ok v) : p.asHandle = .ok v := by
  cases c with
  | set c =>
    cases c <;> first | exact h | simp [FRead.isHandle] at hc

/-- The values of one variable. -/
theorem setHeaderValue_ends (name : Str) (p : CodePair) (r : Header)
    (hd : name ∈ dateVariables → p.Dated)
    (hh : name = str!"$HANDSEED" → ∀ h, p.asHandle = .ok h → h.toNat + room < 2 ^ 64)
    (hr : (r 141 : Handle).toNat + room < 2 ^ 64) :
    Sane (setHeaderValue Header.vars name p r) ∧
    ∀ r', setHeaderValue Header.vars name p r = .ok r' → (r' 141 : Handle).toNat + room < 2 ^ 64 := by
  unfold setHeaderValue findVar
  cases h : Header.vars.find? fun h => decide (h.name = name) with
  | none => exact ⟨Sane.ok, fun r' h => by cases h; exact hr⟩
  | some x =>
    have hx : x.name = name := by simpa using List.find?_some h
    dsimp only
    cases ha : findArm x.arms p.code with
    | none =>
      refine ⟨?_, fun r' h => by cases h⟩
      dsimp only; split <;> simp [Sane]
    | some a =>
      obtain ⟨i, c, h1, h2, h3⟩ := headerVars_sane x (List.mem_of_find?_eq_some h) a
        (List.mem_of_find?_eq_some ha)
      dsimp only
      rw [h1]
      refine ⟨act_sane _ ?_ r, fun r' h' => ?_⟩
      · rcases h3 with h3 | h3
        · exact .inl h3
        · exact .inr (hd (hx ▸ h3))
      · unfold Act.apply at h'
        dsimp only at h'
        cases hv : c.apply (r i) p with
        | error e => rw [hv] at h'; cases h'
        | ok v =>
          rw [hv] at h'
          cases h'
          by_cases hi : i = 141
          · subst hi
            obtain ⟨h4, h5⟩ := h2 rfl
            have := handle_of_set c h5 (r 141) v p hv
            have h6 := hh (hx ▸ h4) v this
            change (Rec.set r 141 v 141 : Handle).toNat + room < 2 ^ 64
            rw [Rec.set_self]
            exact h6
          · change (Rec.set r i v 141 : Handle).toNat + room < 2 ^ 64
            rw [Rec.set_ne r v (fun h => hi h.symm)]
            exact hr

theorem comments_plain {c : Stream} (hc : ∀ it ∈ c, isComment it = true) (q : CodePair)
    (hq : some (.ok q) ∈ c) : q.code = 999 := by
  have := hc _ hq
  simpa [isComment] using this

theorem headerValues_ends {s0 : Stream} {n : CodePair} {name : Str}
    (hs0 : Harmless room (some (.ok n) :: s0)) (hn : n.code = 9) (hv : n.value = .str name)
    (fuel : Nat) : ∀ r b s, s0 = b ++ s → (∀ q, some (.ok q) ∈ b → q.code ≠ 0 ∧ q.code ≠ 9) →
      (r 141 : Handle).toNat + room < 2 ^ 64 →
      Ends s0 (fun r' _ => (r' 141 : Handle).toNat + room < 2 ^ 64)
        (headerValues Header.vars name fuel r s) := by
  induction fuel with
  | zero => exact fun r b s hs _ _ => .fail ⟨b, hs.symm⟩ (by simp)
  | succ fuel ih =>
    intro r b s hs hb hr
    have hss : s <:+ s0 := ⟨b, hs.symm⟩
    unfold headerValues
    obtain ⟨h2, h3⟩ := Stream.next_suffix s
    obtain ⟨c, hc, hsp⟩ := Stream.next_cases s
    rw [Rd.run_bind, Rd.next?]
    rcases hx : Stream.next s with ⟨x, s'⟩
    rw [hx] at h2 h3 hsp
    rcases x with _ | (e | p)
    · exact .pure (h2.trans hss) hr
    · refine ⟨fun hc => ?_, h2.trans hss, fun b hb => by cases hb⟩
      cases hc
      exact hs0.items (List.mem_cons_of_mem _ (((h3 _ rfl).trans hss).subset List.mem_cons_self))
    · have hs' : s = c ++ some (.ok p) :: s' := by
        rcases hsp with h | h
        · cases h.1
        · exact h
      have e1 : s0 = (b ++ c) ++ some (.ok p) :: s' := by rw [hs, hs']; simp
      have e2 : s0 = (b ++ c ++ [some (.ok p)]) ++ s' := by rw [e1]; simp
      have hbc : ∀ q, some (.ok q) ∈ b ++ c → q.code ≠ 0 ∧ q.code ≠ 9 := by
        intro q hq
        rcases List.mem_append.mp hq with hq | hq
        · exact hb q hq
        · have := comments_plain hc q hq
          omega
      refine .ite (fun _ => .bindBack (.pure ⟨_, e1.symm⟩ hr)) fun h0 => ?_
      have hval : ValueOf (some (.ok n) :: s0) name p :=
        ⟨[], n, b ++ c, s', by rw [e1]; rfl, hn, hv, hbc⟩
      obtain ⟨g1, g2⟩ := setHeaderValue_ends (room := room) name p r
        (fun hd f hf => hs0.dates name hd p f hval hf)
        (fun hh h hp => hs0.handles p h (hh ▸ hval) hp) hr
      refine .bindLift ⟨_, e2.symm⟩ g1 fun r' hr' => ?_
      refine ih r' _ s' e2 ?_ (g2 r' hr')
      intro q hq
      rcases List.mem_append.mp hq with hq | hq
      · exact hbc q hq
      · simp only [List.mem_singleton, Option.some.injEq, Except.ok.injEq] at hq
        subst hq
        omega

theorem headerLoop_ends (fuel : Nat) : ∀ r s, Harmless room s →
    (r 141 : Handle).toNat + room < 2 ^ 64 →
    Ends s (fun r' _ => (r' 141 : Handle).toNat + room < 2 ^ 64)
      (headerLoop Header.vars fuel r s) := by
  induction fuel with
  | zero => exact fun r s _ _ => .fail (List.suffix_refl s) (by simp)
  | succ fuel ih =>
    intro r s hs hr
    unfold headerLoop
    refine .next? hs (List.suffix_refl s) (fun s' h => .pure h hr) fun p s' h1 _ => ?_
    have h1' : s' <:+ s := (List.suffix_cons _ _).trans h1
    refine .ite (fun _ => .bindBack (.pure h1 hr)) fun _ => .ite (fun h9 => ?_)
      fun _ => .fail h1' (by simp)
    refine .bindLift h1' .assertString fun name hname => ?_
    refine (((headerValues_ends (hs.suffix h1) h9 (str_of_assert hname) _ r [] s' rfl (by simp)
      hr)).weaken h1').bind (m := Rd.withFuel fun n => headerValues Header.vars name n r)
      fun r' s2 h2 hr' => ?_
    exact (ih r' s2 (hs.suffix h2) hr').weaken h2

theorem header_ends {h0 : Header} (hf : (h0 141 : Handle).toNat + room < 2 ^ 64) (s : Stream)
    (hs : Harmless room s) :
    Ends s (fun r' _ => (r' 141 : Handle).toNat + room < 2 ^ 64) (Header.read h0 s) :=
  headerLoop_ends _ _ s hs hf

/-! ### Classes -/

theorem classApply_sane (v : Version) (p : CodePair) (c : Class) : Sane (Class.apply v p c) := by
  unfold Class.apply
  repeat' split
  all_goals first
    | exact Sane.ok
    | exact Sane.map Sane.assertString
    | exact Sane.map Sane.assertI32
    | exact Sane.map Sane.assertI16

theorem classReadAll_safe (v : Version) (fuel : Nat) : Safe room (Class.readAll v fuel) := by
  induction fuel with
  | zero => exact .fail (by simp)
  | succ fuel ih =>
    unfold Class.readAll
    refine .next fun p => .ite (fun _ => ?_) fun _ => .drop ih
    refine .bindLift .assertString fun _ _ => .ite (fun _ => .bindBack .pure) fun _ =>
      .bind (item_safe _ (fun _ _ => .lift (classApply_sane _ _ _)) _) fun _ =>
        .bind ih fun _ => .pure

/-! ### Tables -/

theorem tableArms_sane (t : TName) (p : CodePair) (hc : t = .layer → p.code = 62 →
    p.value ≠ .short (-32768) ∧ p.value ≠ .boolean (-32768)) :
    ∀ a ∈ t.kind.arms, a.code = p.code → a.act.Sane p := by
  cases t
  case layer =>
    have hd : (62 : Int) = p.code → Tables.readLayerColor.Sane p := by
      intro h62 r
      have h := Sane.assertI16 (p := p)
      dsimp only
      cases hx : p.assertI16 with
      | ok v =>
        dsimp only
        have hv : v ≠ -32768 := by
          rintro rfl
          obtain ⟨h1, h2⟩ := hc rfl h62.symm
          rcases short_of_assert hx with h | h
          · exact h1 h
          · exact h2 h
        split
        · rename_i hcol
          exfalso
          unfold readColor absI16 at hcol
          split at hcol
          · rename_i hm
            exact hv (BitVec.eq_of_toInt_eq (by rw [hm]; decide))
          · cases hcol
        · exact Sane.ok
      | error e => rw [hx] at h; exact fun hc => h (by cases hc; rfl)
    simp only [TName.kind, Tables.layer, Tables.layerArms]
    repeat' first
      | exact fun _ h => absurd h List.not_mem_nil
      | (refine List.forall_mem_cons.mpr ⟨?_, ?_⟩)
      | exact fun _ => .inl rfl
      | exact hd
  all_goals exact any_code (sane_of_on _ (by decide +kernel) p)

theorem tableRead_gets (t : TName) (fuel : Nat) : ∀ k,
    Gets room k (fun l => k + l.length) (t.kind.read fuel) := by
  induction fuel with
  | zero => exact fun _ => .fail (by simp)
  | succ fuel ih =>
    intro k
    have ih' : ∀ {p}, Gets.After room k (fun l => k + l.length) p (t.kind.read fuel) :=
      .drop ((ih k).mono fun _ => by omega)
    unfold TableKind.read
    refine .next fun p => .ite (fun h0 => ?_) fun _ => ih'
    refine .bindLift .assertString fun n hn => .ite (fun _ => .bindBack (.pure (by simp)))
      fun htype => ?_
    intro s hs
    have hs' : Harmless room s := hs.suffix (List.suffix_cons _ _)
    have hfields : Ends s Any (Rd.withFuel (fun f =>
        itemLoop false (Entry.apply t.kind.arms) f (Entry.dflt t.kind.decls)) s) := by
      refine (itemLoop_ends True hs' false Any (fun _ _ _ _ => trivial) ?_ _ _ [] s rfl
        (fun _ => .inl (by simp)) trivial).any
      intro q st b s1 h hw _ _
      have hs1 : Harmless room s1 := hs'.suffix ⟨b ++ [some (.ok q)], by rw [h]; simp⟩
      refine (entryApply_ends _ hs1 (tableArms_sane t q ?_) st).imp
        fun _ _ _ h => ⟨trivial, fun _ => h.2⟩
      rintro rfl h62
      refine hs.colors b q ⟨[], p, s1, by rw [h]; rfl, h0, ?_, hw trivial⟩ h62
      have := str_of_assert hn
      rw [this]
      exact congrArg _ (Classical.byContradiction htype)
    refine ((hfields.imp (Q' := fun _ s' => s'.length ≤ s.length)
      fun _ _ h _ => h.length_le).weaken (List.suffix_cons _ _)).bind fun it s2 h2 hl => ?_
    refine (((ih (k + 1)) s2 (hs.suffix h2)).weaken h2).bind fun rest s3 h3 hc => .pure h3 ?_
    dsimp only at hc
    simp only [List.length_cons]
    omega

/-! ### Thumbnails -/

theorem pictureData_comments {c : Stream} (hc : ∀ it ∈ c, isComment it = true) (s : Stream) :
    pictureData (c ++ s) = pictureData s := by
  induction c with
  | nil => rfl
  | cons it c ih =>
    have h1 := hc it List.mem_cons_self
    rw [List.cons_append]
    rcases it with _ | (e | q)
    · simp [isComment] at h1
    · simp [isComment] at h1
    · have h2 : q.code = 999 := by simpa [isComment] using h1
      conv_lhs => unfold pictureData
      rw [if_neg (by omega), if_neg (by omega)]
      exact ih fun x hx => hc x (List.mem_cons_of_mem _ hx)

/-- The data that is read is that of the pairs. -/
theorem readChunks_ends (fuel : Nat) : ∀ s, Harmless room s →
    Ends s (fun d _ => d = pictureData s) (Thumbnail.readChunks fuel s) := by
  induction fuel with
  | zero => exact fun s _ => .fail (List.suffix_refl s) (by simp)
  | succ fuel ih =>
    intro s hs
    unfold Thumbnail.readChunks
    obtain ⟨h2, h3⟩ := Stream.next_suffix s
    have hnil : Stream.next s = (none, (Stream.next s).2) → pictureData s = [] := by
      clear ih hs h2 h3
      induction s with
      | nil => exact fun _ => rfl
      | cons it s ih =>
        intro h
        rw [Stream.next] at h
        split at h
        · rename_i hc
          have := ih (by rw [h])
          rw [← this]
          exact pictureData_comments (c := [it]) (by simpa using hc) s
        · cases it with
          | none => rfl
          | some x => cases h
    obtain ⟨c, hc, hsp⟩ := Stream.next_cases s
    rw [Rd.run_bind, Rd.next?]
    rcases hx : Stream.next s with ⟨x, s'⟩
    rw [hx] at h2 h3 hsp hnil
    rcases x with _ | (e | p)
    · exact .pure h2 (hnil rfl).symm
    · refine ⟨fun hc => ?_, h2, fun b hb => by cases hb⟩
      cases hc
      exact hs.items ((h3 _ rfl).subset List.mem_cons_self)
    · have hs' : s = c ++ some (.ok p) :: s' := by
        rcases hsp with h | h
        · cases h.1
        · exact h
      have hp : pictureData s = pictureData (some (.ok p) :: s') := by
        rw [hs']
        exact pictureData_comments hc _
      refine .ite (fun h0 => .bindBack (.pure (h3 _ rfl) ?_)) fun h0 => .ite (fun h310 => ?_)
        fun _ => .fail h2 (by simp)
      · rw [hp]
        unfold pictureData
        rw [if_pos h0]
      · refine .bindLift h2 .assertBinary fun line hline => ?_
        refine ((ih s' (hs.suffix h2)).weaken h2).bind fun rest s2 hs2 hrest => .pure hs2 ?_
        have hb : p.value = .binary line := by
          unfold CodePair.assertBinary at hline
          split at hline
          · cases hline; assumption
          · cases hline
        rw [hp, hrest]
        conv_rhs => unfold pictureData
        rw [if_neg h0, if_pos h310, hb]

theorem readWord_sane (d : List Byte) (o : Nat) : Sane (Thumbnail.readWord d o) := by
  unfold Thumbnail.readWord
  split <;> simp [Sane]

theorem setWord_sane (d : List Byte) (o : Nat) (v : BitVec 32) : Sane (Thumbnail.setWord d o v) := by
  unfold Thumbnail.setWord
  split <;> simp [Sane]

theorem word_small (b0 b1 b2 b3 : Byte) (h : b3.toNat < 128) :
    ((b0.zeroExtend 32 + (b1.zeroExtend 32 <<< 8) + (b2.zeroExtend 32 <<< 16) +
      (b3.zeroExtend 32 <<< 24)).signExtend 64).toNat < 2 ^ 31 := by
  have e : (b0.zeroExtend 32 + (b1.zeroExtend 32 <<< 8) + (b2.zeroExtend 32 <<< 16) +
      (b3.zeroExtend 32 <<< 24)).toNat < 2 ^ 31 := by
    simp only [BitVec.toNat_add, BitVec.toNat_shiftLeft, BitVec.truncate_eq_setWidth,
      BitVec.toNat_setWidth, Nat.shiftLeft_eq]
    have := b0.isLt
    have := b1.isLt
    have := b2.isLt
    omega
  generalize b0.zeroExtend 32 + (b1.zeroExtend 32 <<< 8) + (b2.zeroExtend 32 <<< 16) +
      (b3.zeroExtend 32 <<< 24) = w at e
  have hmsb : w.msb = false := by
    rw [BitVec.msb_eq_false_iff_two_mul_lt]
    omega
  rw [BitVec.toNat_signExtend, hmsb, BitVec.toNat_setWidth]
  simp only [Bool.false_eq_true, if_false, Nat.add_zero]
  omega

theorem readWord_small (d : List Byte) (w : BitVec 32) (h : ∀ b, d[17]? = some b → b.toNat < 128)
    (hw : Thumbnail.readWord d 14 = .ok w) : (w.signExtend 64).toNat < 2 ^ 31 := by
  unfold Thumbnail.readWord at hw
  split at hw
  · rename_i b0 b1 b2 b3 rest hd
    rw [← Except.ok.inj hw]
    refine word_small b0 b1 b2 b3 (h b3 ?_)
    have : (d.drop 14)[3]? = some b3 := by rw [hd]; rfl
    rwa [List.getElem?_drop] at this
  · cases hw

/-- A size that is not negative does not overflow. -/
theorem setOffset_sane (d : List Byte) (h : ∀ b, d[17]? = some b → b.toNat < 128) :
    Sane (Thumbnail.setOffset d) := by
  unfold Thumbnail.setOffset
  refine Sane.bind (readWord_sane _ _) fun w hw => ?_
  dsimp only
  split
  · refine Sane.bind (readWord_sane _ _) fun colors _ => ?_
    have hlt := readWord_small d w h hw
    split
    · rename_i hbig
      have := colors.isLt
      omega
    · exact Sane.bind (setWord_sane _ _ _) fun _ _ => Sane.ok
  · exact Sane.ok

theorem readBytes_ends (s : Stream) (hs : Harmless room s) : Ends s (fun d _ => ∀ d', d = some d' →
    d'[17]? = (pictureData s)[3]?) (Thumbnail.readBytes s) := by
  unfold Thumbnail.readBytes
  obtain ⟨h2, h3⟩ := Stream.next_suffix s
  obtain ⟨c, hc, hsp⟩ := Stream.next_cases s
  rw [Rd.run_bind, Rd.next?]
  rcases hx : Stream.next s with ⟨x, s'⟩
  rw [hx] at h2 h3 hsp
  rcases x with _ | (e | p)
  · exact .pure h2 (by simp)
  · refine ⟨fun hc => ?_, h2, fun b hb => by cases hb⟩
    cases hc
    exact hs.items ((h3 _ rfl).subset List.mem_cons_self)
  · have hs' : s = c ++ some (.ok p) :: s' := by
      rcases hsp with h | h
      · cases h.1
      · exact h
    refine .ite (fun h0 => .bindBack (.pure (h3 _ rfl) (by simp))) fun h0 => .ite (fun h90 => ?_)
      fun _ => .fail h2 (by simp)
    refine .bindLift h2 .assertI32 fun _ _ => ?_
    refine ((readChunks_ends _ s' (hs.suffix h2)).weaken h2).bind
      (m := Rd.withFuel Thumbnail.readChunks) fun body s2 hs2 hb => ?_
    refine .bindLift hs2 (setWord_sane _ _ _) fun d hd => .pure hs2 ?_
    rintro _ ⟨⟩
    have hp : pictureData s = pictureData s' := by
      rw [hs']
      refine (pictureData_comments hc _).trans ?_
      conv_lhs => unfold pictureData
      rw [if_neg h0, if_neg (by omega)]
    rw [hp, ← hb]
    unfold Thumbnail.setWord at hd
    split at hd
    · cases hd
    · cases hd
      simp only [Thumbnail.fileHeader]
      cases body with
      | nil => rfl
      | cons a body =>
        rfl

theorem thumbnail_ends {Img : Type} (codec : ImageCodec Img) (hl : ∀ d, Sane (codec.load d))
    (s : Stream) (hs : Harmless room s) (hb : ∀ b, (pictureData s)[3]? = some b → b.toNat < 128) :
    Ends s Any (Thumbnail.read codec s) := by
  unfold Thumbnail.read
  refine (readBytes_ends s hs).bind fun d s' hs' h => ?_
  cases d with
  | none => exact .pure hs' trivial
  | some d =>
    refine .bindLift hs' (setOffset_sane d fun b h' => hb b (h d rfl ▸ h')) fun d' _ => ?_
    cases d' with
    | none => exact .pure hs' trivial
    | some d' => exact .bindLift hs' (hl _) fun _ _ => .pure hs' trivial

/-! ### Sections -/

namespace Drawing

variable {Img : Type}

/-- Adding something for which there is room does not panic. -/
theorem Affords.ends {k n : Nat} {d : Drawing Img} {x : Except DxfErr (Drawing Img)} {s0 s : Stream}
    (h : Affords k d x id) (hr : Room (k + n) d) (hs : s <:+ s0) (hn : 18 * s.length ≤ n) :
    Ends s0 (fun d' s' => Room (18 * s'.length) d') (Rd.lift x s) := by
  obtain ⟨a, rfl, ha⟩ := h n hr
  refine .lift hs Sane.ok ?_
  rintro _ ⟨⟩
  exact ha.mono hn

/-- A reader that has room for the handles it gives out: 18 for each item of the stream. -/
def Keeps (room : Nat) (d : Drawing Img) (r : Rd (Drawing Img)) : Prop :=
  ∀ s, Harmless room s → 18 * s.length ≤ room → Room (18 * s.length) d →
    Ends s (fun d' s' => Room (18 * s'.length) d') (r s)

theorem expect_safe (mark : Str) : Dxf.Safe room (expect mark) := by
  unfold expect
  exact .next fun p => .ite (fun _ => .pure) fun _ => .fail (by simp)

theorem swallowTable_safe (fuel : Nat) : Dxf.Safe room (swallowTable fuel) := by
  induction fuel with
  | zero => exact .fail (by simp)
  | succ fuel ih =>
    unfold swallowTable
    exact .next fun p => .ite (fun _ => .bindLift .assertString fun _ _ =>
      .ite (fun _ => .putBack) fun _ => .drop ih) fun _ => .drop ih

theorem swallowSection_safe (fuel : Nat) : Dxf.Safe room (swallowSection fuel) := by
  induction fuel with
  | zero => exact .fail (by simp)
  | succ fuel ih =>
    unfold swallowSection
    exact .next? .pure fun p => .ite (fun _ => .bindLift .assertString fun _ _ =>
      .ite (fun _ => .putBack) fun _ => .drop ih) fun _ => .drop ih

/-- Reading something that does not change the drawing. -/
theorem keeps_then {α : Type} {d : Drawing Img} {m : Rd α} (hm : Dxf.Safe room m)
    {f : α → Rd (Drawing Img)} (hf : ∀ a, Keeps room d (f a)) : Keeps room d (m >>= f) :=
  fun s hs hl hr => (hm s hs).bind fun a s' h _ => by
    have := h.length_le
    exact (hf a s' (hs.suffix h) (by omega) (hr.mono (by omega))).weaken h

theorem keeps_pure (d : Drawing Img) : Keeps room d (pure d) :=
  fun s _ _ hr => .pure (List.suffix_refl s) hr

theorem keeps_fail (d : Drawing Img) {e : DxfErr} (h : e ≠ .panic) : Keeps room d (Rd.fail e) :=
  fun s _ _ _ => .fail (List.suffix_refl s) h

theorem keeps_bind {d : Drawing Img} {m : Rd (Drawing Img)} (hm : Keeps room d m)
    {f : Drawing Img → Rd (Drawing Img)} (hf : ∀ a, Keeps room a (f a)) : Keeps room d (m >>= f) :=
  fun s hs hl hr => (hm s hs hl hr).bind fun a s' h hr' => by
    have := h.length_le
    exact (hf a s' (hs.suffix h) (by omega) hr').weaken h

theorem keeps_ite {d : Drawing Img} {c : Prop} [Decidable c] {a b : Rd (Drawing Img)}
    (ha : c → Keeps room d a) (hb : ¬ c → Keeps room d b) : Keeps room d (if c then a else b) := by
  by_cases h : c
  · rw [if_pos h]; exact ha h
  · rw [if_neg h]; exact hb h

/-- The same after a pair has been read, which may be put back; there is room for it. -/
def KeepsAfter (room : Nat) (d : Drawing Img) (p : CodePair) (r : Rd (Drawing Img)) : Prop :=
  ∀ s, Harmless room (some (.ok p) :: s) → 18 * (s.length + 1) ≤ room →
    Room (18 * (s.length + 1)) d →
    Ends (some (.ok p) :: s) (fun d' s' => Room (18 * s'.length) d') (r s)

theorem keeps_next {d : Drawing Img} {f : CodePair → Rd (Drawing Img)}
    (hf : ∀ p, KeepsAfter room d p (f p)) : Keeps room d (Rd.next >>= f) :=
  fun s hs hl hr => .next hs (List.suffix_refl s) fun p s' h hlt =>
    (hf p s' (hs.suffix h) (by omega) (hr.mono (by omega))).weaken h

theorem keeps_next? {d : Drawing Img} {f : Option CodePair → Rd (Drawing Img)}
    (hn : Keeps room d (f none)) (hf : ∀ p, KeepsAfter room d p (f (some p))) :
    Keeps room d (Rd.next? >>= f) :=
  fun s hs hl hr => .next? hs (List.suffix_refl s)
    (fun s' h => by
      have := h.length_le
      exact (hn s' (hs.suffix h) (by omega) (hr.mono (by omega))).weaken h)
    fun p s' h hlt => (hf p s' (hs.suffix h) (by omega) (hr.mono (by omega))).weaken h

namespace KeepsAfter

variable {d : Drawing Img} {p : CodePair}

theorem drop {r : Rd (Drawing Img)} (h : Keeps room d r) : KeepsAfter room d p r :=
  fun s hs hl hr => (h s (hs.suffix (List.suffix_cons _ _)) (by omega)
    (hr.mono (by omega))).weaken (List.suffix_cons _ _)

theorem fail {e : DxfErr} (h : e ≠ .panic) : KeepsAfter room d p (Rd.fail e) := drop (keeps_fail d h)

theorem bindLift {α : Type} {x : Except DxfErr α} {f : α → Rd (Drawing Img)} (h : Sane x)
    (hf : ∀ a, KeepsAfter room d p (f a)) : KeepsAfter room d p (Rd.lift x >>= f) :=
  fun s hs hl hr => .bindLift (List.suffix_cons _ _) h fun a _ => hf a s hs hl hr

theorem bindBack {f : Unit → Rd (Drawing Img)} (hf : Keeps room d (f ())) :
    KeepsAfter room d p (Rd.putBack p >>= f) :=
  fun s hs hl hr => hf (some (.ok p) :: s) hs hl hr

theorem ite {c : Prop} [Decidable c] {a b : Rd (Drawing Img)} (ha : c → KeepsAfter room d p a)
    (hb : ¬ c → KeepsAfter room d p b) : KeepsAfter room d p (if c then a else b) := by
  by_cases h : c
  · rw [if_pos h]; exact ha h
  · rw [if_neg h]; exact hb h

end KeepsAfter

theorem readTable_keeps (d : Drawing Img) : Keeps room d (readTable d) := by
  unfold readTable
  refine keeps_next fun p => .ite (fun _ => .fail (by simp)) fun _ =>
    .bindLift .assertString fun n => .drop ?_
  cases tableOf n with
  | none =>
    exact keeps_then (Dxf.Safe.withFuel fun _ => swallowTable_safe _) fun _ =>
      keeps_then (expect_safe _) fun _ => keeps_pure d
  | some T =>
    intro s hs hl hr
    refine ((Gets.withFuel fun n => tableRead_gets T n 0) s hs).bind fun items s' h hc => ?_
    refine Ends.bind (Q := fun d' s'' => Room (18 * s''.length) d') ?_ fun d' s'' h'' hr' => ?_
    · have ha : Affords (2 * items.length) d (items.foldlM (addRead T) d) id := by
        refine (affords_fold (addRead T) (fun _ => 2) (fun d x => affords_read d T x) _ _).mono ?_
        rw [List.map_const', List.sum_replicate_nat]
        omega
      exact ha.ends (n := 18 * s'.length) (hr.mono (by omega)) h (by omega)
    · have := h''.length_le
      exact (keeps_then (expect_safe _) (fun _ => keeps_pure d') s'' (hs.suffix h'') (by omega)
        hr').weaken h''

theorem readBlock_keeps (d : Drawing Img) : ∀ s, Harmless room s → 18 * (s.length + 1) ≤ room →
    Room (18 * (s.length + 1)) d →
    Ends s (fun d' s' => Room (18 * s'.length) d') (readBlock d s) := by
  intro s hs hl hr
  unfold readBlock
  refine (blockRead_gets s hs).bind fun b s' h hc => ?_
  dsimp only at hc
  exact (affords_readBlock d b).ends (n := 18 * s'.length) (hr.mono (by omega)) h (by omega)

/-- Items that may use the room of the pair that names them. -/
theorem readItems_keeps {type : Str} {callback : Drawing Img → Rd (Drawing Img)}
    (hc : ∀ d s, Harmless room s → 18 * (s.length + 1) ≤ room → Room (18 * (s.length + 1)) d →
      Ends s (fun d' s' => Room (18 * s'.length) d') (callback d s)) (fuel : Nat) :
    ∀ d, Keeps room d (readItems type callback fuel d) := by
  induction fuel with
  | zero => exact fun d => keeps_fail d (by simp)
  | succ fuel ih =>
    intro d
    unfold readItems
    refine keeps_next fun p => .ite (fun _ => ?_) fun _ => .fail (by simp)
    refine .bindLift .assertString fun n => .ite (fun _ => .bindBack (keeps_pure d)) fun _ =>
      .ite (fun _ => ?_) fun _ => .fail (by simp)
    intro s hs hl hr
    have h1 := List.suffix_cons (some (.ok p) : Item) s
    refine ((hc d s (hs.suffix h1) hl hr).weaken h1).bind fun d' s' h' hr' => ?_
    have := h'.length_le
    exact (ih d' s' (hs.suffix h') (by simp only [List.length_cons] at this; omega) hr').weaken h'

theorem readEntitySection_keeps (d : Drawing Img) : Keeps room d d.readEntitySection := by
  intro s hs hl hr
  unfold readEntitySection
  refine (readEntities_gets 0 s hs).bind fun es s' h hc => ?_
  dsimp only at hc
  have ha := affords_fold addReadEntity _ affords_readEntity es d
  refine ha.ends (n := 18 * s'.length) (hr.mono ?_) h (by omega)
  have : (es.map fun e => 18 + e.extra.atts.length + e.extra.verts.length).sum ≤
      18 * (es.map Entity.weight).sum := by
    clear ha hc
    induction es with
    | nil => simp
    | cons e es ih => simp only [List.map_cons, List.sum_cons, Entity.weight] at ih ⊢; omega
  omega

theorem readObjectSection_keeps (d : Drawing Img) : Keeps room d d.readObjectSection := by
  intro s hs hl hr
  unfold readObjectSection
  refine (readObjects_gets 0 s hs).bind fun os s' h hc => ?_
  dsimp only at hc
  have ha := affords_fold addReadObject _ affords_readObject os d
  refine ha.ends (n := 18 * s'.length) (hr.mono ?_) h (by omega)
  have : (os.map fun o => 7 + 2 * o.layers.length).sum ≤
      18 * (os.map fun o => 1 + o.layers.length).sum := by
    clear ha hc
    induction os with
    | nil => simp
    | cons e es ih => simp only [List.map_cons, List.sum_cons] at ih ⊢; omega
  omega

theorem readSection_keeps (codec : ImageCodec Img) (hcodec : ∀ b, Sane (codec.load b))
    {h0 : Header} (hf : (h0 141 : Handle).toNat + room < 2 ^ 64) {q : CodePair} (name : Str)
    (h2 : q.code = 2) (hq : q.value = .str name) (d : Drawing Img) :
    KeepsAfter room d q (readSection codec h0 name d) := by
  unfold readSection
  refine .ite (fun _ => ?_) fun _ => .ite (fun _ => .drop ?_) fun _ => .ite (fun _ => .drop ?_)
    fun _ => .ite (fun _ => .drop ?_) fun _ => .ite (fun _ => .drop (readEntitySection_keeps d))
    fun _ => .ite (fun _ => .drop (readObjectSection_keeps d)) fun _ => .ite (fun hn => ?_)
    fun _ => .drop ?_
  · refine .drop fun s hs hl hr => ?_
    refine (header_ends hf s hs).bind fun h s' hs' hh => .pure hs' ?_
    have := hs'.length_le
    unfold Room
    change (h 141 : Handle).toNat + _ < _
    omega
  · refine keeps_then (Dxf.Safe.withFuel fun _ => classReadAll_safe _ _) fun cs s hs hl hr =>
      .pure (List.suffix_refl s) hr
  · exact fun s hs hl hr => readItems_keeps (fun d s hs hl hr =>
      readTable_keeps d s hs (by omega) (hr.mono (by omega))) _ d s hs hl hr
  · exact fun s hs hl hr => readItems_keeps readBlock_keeps _ d s hs hl hr
  · intro s hs hl hr
    have h1 := List.suffix_cons (some (.ok q) : Item) s
    refine ((thumbnail_ends codec hcodec s (hs.suffix h1) fun b hb => ?_).weaken h1).bind
      fun img s' hs' _ => .pure hs' (hr.mono ?_)
    · exact hs.pictures [] q s b rfl h2 (hn ▸ hq) hb
    · have := hs'.length_le
      simp only [List.length_cons] at this
      omega
  · exact keeps_then (Dxf.Safe.withFuel fun _ => swallowSection_safe _) fun _ => keeps_pure d

theorem readSections_keeps (codec : ImageCodec Img) (hcodec : ∀ b, Sane (codec.load b))
    {h0 : Header} (hf : (h0 141 : Handle).toNat + room < 2 ^ 64) (fuel : Nat) :
    ∀ d, Keeps room d (readSections codec h0 fuel d) := by
  induction fuel with
  | zero => exact fun d => keeps_fail d (by simp)
  | succ fuel ih =>
    intro d
    unfold readSections
    refine keeps_next? (keeps_pure d) fun p => .ite (fun _ => ?_) fun _ => .fail (by simp)
    refine .bindLift .assertString fun _ => .ite (fun _ => .bindBack (keeps_pure d)) fun _ =>
      .ite (fun _ => .drop ?_) fun _ => .fail (by simp)
    refine keeps_next fun q => ?_
    split
    · rename_i name hname
      refine .ite (fun h2 s hs hl hr => ?_) fun _ => .fail (by simp)
      refine (readSection_keeps codec hcodec hf name h2 hname d s hs hl hr).bind
        fun d' s' hs' hr' => ?_
      have := hs'.length_le
      simp only [List.length_cons] at this
      exact (keeps_then (expect_safe _) (fun _ => ih d') s' (hs.suffix hs') (by omega)
        hr').weaken hs'
    · exact .fail (by simp)

theorem finish_keeps (d : Drawing Img) : Keeps room d d.finish := by
  unfold finish
  refine keeps_next? (keeps_pure d) fun p => .ite (fun _ => .drop (keeps_pure d)) fun _ =>
    .fail (by simp)

/-- Loading a harmless stream does not panic. -/
theorem load_sane (codec : ImageCodec Img) (hcodec : ∀ b, Sane (codec.load b)) {h0 : Header}
    (hf : h0.Fresh) (order : List Str) (ho : 41 + 2 * order.length < 2 ^ 64) (s : Stream)
    (hl : 1 + 18 * s.length < 2 ^ 64) (hs : Harmless (18 * s.length) s) :
    Sane (load codec h0 order s).1 := by
  have h141 : h0 141 = (1#64 : Handle) := hf 141 (by decide)
  obtain ⟨d, hd⟩ := new_ok (Img := Img) hf order ho
  unfold load
  rw [hd]
  have hroom : Room (18 * s.length) d.clear := by
    unfold Room
    change (1#64).toNat + _ < _
    exact hl
  have hr : (h0 141 : Handle).toNat + 18 * s.length < 2 ^ 64 := by
    rw [h141]
    exact hl
  exact (keeps_bind (readSections_keeps codec hcodec hr _ _) (fun d => finish_keeps d) s hs
    (Nat.le_refl _) hroom).1

end Drawing

end Dxf
