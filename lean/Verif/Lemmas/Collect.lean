import Verif.Lemmas.Entities
import Verif.Spec.Collect

/-! Attaching entities to the ones before them. -/

namespace Dxf

/-! ### Streams as lists of entities -/

/-- Reading entity by entity from the stream yields the list and stops. -/
inductive Feeds : Stream → List Flat → Stream → Prop
  | nil {s : Stream} : nextEntity s = (.ok none, s) → Feeds s [] s
  | cons {s s1 s' : Stream} {x : Flat} {xs : List Flat} : nextEntity s = (.ok (some x), s1) →
      s1.length < s.length → Feeds s1 xs s' → Feeds s (x :: xs) s'

theorem Feeds.length {s s' : Stream} {fs : List Flat} (h : Feeds s fs s') :
    fs.length ≤ s.length := by
  induction h with
  | nil => simp
  | cons _ hl _ ih => simp; omega

/-- The same with an entity that was put back. -/
def SlotFeeds : Option Flat → Stream → List Flat → Stream → Prop
  | none, s, fs, s' => Feeds s fs s'
  | some x, s, fs, s' => ∃ fs', fs = x :: fs' ∧ Feeds s fs' s'

theorem SlotFeeds.next {slot : Option Flat} {s s' : Stream} {fs : List Flat}
    (h : SlotFeeds slot s fs s') :
    (fs = [] ∧ slot = none ∧ s = s' ∧ nextSlot slot s = (.ok none, s) ∧ Feeds s [] s) ∨
    ∃ x fs1 s1, fs = x :: fs1 ∧ nextSlot slot s = (.ok (some x), s1) ∧ Feeds s1 fs1 s' := by
  cases slot with
  | some x =>
    obtain ⟨fs', rfl, hy⟩ := h
    exact .inr ⟨x, fs', s, rfl, rfl, hy⟩
  | none =>
    cases h with
    | nil h => exact .inl ⟨rfl, rfl, rfl, h, .nil h⟩
    | cons h hl hy => exact .inr ⟨_, _, _, rfl, h, hy⟩

/-! ### The same on lists -/

def splitAtts : List Flat → List Att × List Flat
  | [] => ([], [])
  | ⟨.attribute, _, e⟩ :: fs =>
    (⟨Rec.bare e.fields, Rec.dflt _, autoReplaceHandle⟩ :: (splitAtts fs).1, (splitAtts fs).2)
  | x :: fs => ([], x :: fs)

def splitVerts : List Flat → List Vert × List Flat
  | [] => ([], [])
  | ⟨.vertex, _, e⟩ :: fs =>
    (⟨Rec.bare e.fields, autoReplaceHandle⟩ :: (splitVerts fs).1, (splitVerts fs).2)
  | x :: fs => ([], x :: fs)

def dropSeqend : List Flat → List Flat
  | [] => []
  | x :: fs => if x.kind = .seqend then fs else x :: fs

def splitMText : List Flat → Option MTextRec × List Flat
  | [] => (none, [])
  | ⟨.mText, _, e⟩ :: fs => (some (Rec.bare e.fields), fs)
  | x :: fs => (none, x :: fs)

def collect : Nat → List Flat → List Entity
  | 0, _ => []
  | _ + 1, [] => []
  | n + 1, x :: fs =>
    if x.kind = .attribute ∨ x.kind = .attributeDefinition then
      withMText x (splitMText fs).1 :: collect n (splitMText fs).2
    else if x.wantsAtts then
      ⟨x, { Extra.dflt with atts := (splitAtts fs).1 }⟩ :: collect n (dropSeqend (splitAtts fs).2)
    else if x.kind = .polyline then
      ⟨x, { Extra.dflt with verts := (splitVerts fs).1 }⟩ ::
        collect n (dropSeqend (splitVerts fs).2)
    else ⟨x, Extra.dflt⟩ :: collect n fs

theorem splitAtts_length (fs : List Flat) : (splitAtts fs).2.length ≤ fs.length := by
  induction fs with
  | nil => simp [splitAtts]
  | cons x fs ih =>
    obtain ⟨k, n, e⟩ := x
    cases k
    case «attribute» => simp only [splitAtts, List.length_cons]; omega
    all_goals simp [splitAtts]

theorem splitVerts_length (fs : List Flat) : (splitVerts fs).2.length ≤ fs.length := by
  induction fs with
  | nil => simp [splitVerts]
  | cons x fs ih =>
    obtain ⟨k, n, e⟩ := x
    cases k
    case vertex => simp only [splitVerts, List.length_cons]; omega
    all_goals simp [splitVerts]

theorem dropSeqend_length (fs : List Flat) : (dropSeqend fs).length ≤ fs.length := by
  cases fs with
  | nil => simp [dropSeqend]
  | cons x fs =>
    simp only [dropSeqend]
    split <;> simp

theorem splitMText_length (fs : List Flat) : (splitMText fs).2.length ≤ fs.length := by
  cases fs with
  | nil => simp [splitMText]
  | cons x fs =>
    obtain ⟨k, n, e⟩ := x
    cases k <;> simp [splitMText]

/-! ### They agree -/

theorem takeMText_eq {slot : Option Flat} {s s' : Stream} {fs : List Flat}
    (h : SlotFeeds slot s fs s') : ∃ slot' s1,
      takeMText slot s = (.ok ((splitMText fs).1, slot'), s1) ∧
      SlotFeeds slot' s1 (splitMText fs).2 s' := by
  unfold takeMText
  rcases h.next with ⟨rfl, rfl, rfl, hn, hy⟩ | ⟨x, fs1, s1, rfl, hn, hy⟩
  · exact ⟨none, s, by rw [Rd.bind_ok hn]; rfl, hy⟩
  · obtain ⟨k, n, e⟩ := x
    rw [Rd.bind_ok hn]
    cases k
    case mText => exact ⟨none, s1, rfl, hy⟩
    all_goals exact ⟨_, s1, rfl, ⟨fs1, rfl, hy⟩⟩

theorem swallowSeqend_eq {slot : Option Flat} {s s' : Stream} {fs : List Flat}
    (h : SlotFeeds slot s fs s') : ∃ slot' s1,
      swallowSeqend slot s = (.ok slot', s1) ∧ SlotFeeds slot' s1 (dropSeqend fs) s' := by
  unfold swallowSeqend
  rcases h.next with ⟨rfl, rfl, rfl, hn, hy⟩ | ⟨x, fs1, s1, rfl, hn, hy⟩
  · exact ⟨none, s, by rw [Rd.bind_ok hn]; rfl, hy⟩
  · rw [Rd.bind_ok hn]
    simp only [dropSeqend]
    by_cases hk : x.kind = .seqend
    · simp only [if_pos hk]
      exact ⟨none, s1, rfl, hy⟩
    · simp only [if_neg hk]
      exact ⟨some x, s1, rfl, ⟨fs1, rfl, hy⟩⟩

theorem gatherAtts_eq {fs : List Flat} {slot : Option Flat} {s s' : Stream}
    (h : SlotFeeds slot s fs s') (fuel : Nat) (hf : fs.length < fuel) : ∃ slot' s1,
      gatherAtts fuel slot s = (.ok ((splitAtts fs).1, slot'), s1) ∧
      SlotFeeds slot' s1 (splitAtts fs).2 s' := by
  induction fs generalizing slot s fuel with
  | nil =>
    obtain ⟨f, rfl⟩ : ∃ f, fuel = f + 1 := ⟨fuel - 1, by omega⟩
    rw [gatherAtts]
    rcases h.next with ⟨_, rfl, rfl, hn, hy⟩ | ⟨x, fs1, s1, hx, _⟩
    · exact ⟨none, s, by rw [Rd.bind_ok hn]; rfl, hy⟩
    · cases hx
  | cons x fs ih =>
    obtain ⟨f, rfl⟩ : ∃ f, fuel = f + 1 := ⟨fuel - 1, by omega⟩
    rw [gatherAtts]
    rcases h.next with ⟨hx, _⟩ | ⟨x, fs1, s1, hx, hn, hy⟩
    · cases hx
    · cases hx
      rw [Rd.bind_ok hn]
      obtain ⟨k, n, e⟩ := x
      cases k
      case «attribute» =>
        obtain ⟨slot', s2, h1, h2⟩ := ih (slot := none) hy f (by simp at hf; omega)
        refine ⟨slot', s2, ?_, h2⟩
        simp only
        rw [Rd.bind_ok h1]
        rfl
      all_goals exact ⟨_, s1, rfl, ⟨fs, rfl, hy⟩⟩

theorem gatherVerts_eq {fs : List Flat} {slot : Option Flat} {s s' : Stream}
    (h : SlotFeeds slot s fs s') (fuel : Nat) (hf : fs.length < fuel) : ∃ slot' s1,
      gatherVerts fuel slot s = (.ok ((splitVerts fs).1, slot'), s1) ∧
      SlotFeeds slot' s1 (splitVerts fs).2 s' := by
  induction fs generalizing slot s fuel with
  | nil =>
    obtain ⟨f, rfl⟩ : ∃ f, fuel = f + 1 := ⟨fuel - 1, by omega⟩
    rw [gatherVerts]
    rcases h.next with ⟨_, rfl, rfl, hn, hy⟩ | ⟨x, fs1, s1, hx, _⟩
    · exact ⟨none, s, by rw [Rd.bind_ok hn]; rfl, hy⟩
    · cases hx
  | cons x fs ih =>
    obtain ⟨f, rfl⟩ : ∃ f, fuel = f + 1 := ⟨fuel - 1, by omega⟩
    rw [gatherVerts]
    rcases h.next with ⟨hx, _⟩ | ⟨x, fs1, s1, hx, hn, hy⟩
    · cases hx
    · cases hx
      rw [Rd.bind_ok hn]
      obtain ⟨k, n, e⟩ := x
      cases k
      case vertex =>
        obtain ⟨slot', s2, h1, h2⟩ := ih (slot := none) hy f (by simp at hf; omega)
        refine ⟨slot', s2, ?_, h2⟩
        simp only
        rw [Rd.bind_ok h1]
        rfl
      all_goals exact ⟨_, s1, rfl, ⟨fs, rfl, hy⟩⟩

theorem collectEntities_eq (fuel : Nat) {fs : List Flat} {slot : Option Flat} {s s' : Stream}
    (h : SlotFeeds slot s fs s') (hf : fs.length < fuel) :
    collectEntities fuel slot s = (.ok (collect fuel fs), s') := by
  induction fuel generalizing fs slot s with
  | zero => omega
  | succ fuel ih =>
    rw [collectEntities]
    rcases h.next with ⟨rfl, rfl, rfl, hn, hy⟩ | ⟨x, fs1, s1, rfl, hn, hy⟩
    · rw [Rd.bind_ok hn]
      rfl
    · rw [Rd.bind_ok hn]
      simp only [List.length_cons] at hf
      simp only [collect]
      by_cases h1 : x.kind = .attribute ∨ x.kind = .attributeDefinition
      · simp only [if_pos h1]
        obtain ⟨slot', s2, h2, h3⟩ := takeMText_eq (slot := none) hy
        have hl := splitMText_length fs1
        rw [Rd.bind_ok h2]
        simp only
        rw [Rd.bind_ok (ih h3 (by omega))]
        rfl
      · simp only [if_neg h1]
        by_cases h2 : x.wantsAtts = true
        · simp only [if_pos h2]
          obtain ⟨slot', s2, h3, h4⟩ := gatherAtts_eq (slot := none) hy (s1.length + 1)
            (by have := hy.length; omega)
          obtain ⟨slot'', s3, h5, h6⟩ := swallowSeqend_eq h4
          have hl := splitAtts_length fs1
          have hl2 := dropSeqend_length (splitAtts fs1).2
          rw [Rd.bind_ok (by rw [Rd.run_withFuel]; exact h3)]
          simp only
          rw [Rd.bind_ok h5, Rd.bind_ok (ih h6 (by omega))]
          rfl
        · simp only [if_neg h2]
          by_cases h3 : x.kind = .polyline
          · simp only [if_pos h3]
            obtain ⟨slot', s2, h3, h4⟩ := gatherVerts_eq (slot := none) hy (s1.length + 1)
              (by have := hy.length; omega)
            obtain ⟨slot'', s3, h5, h6⟩ := swallowSeqend_eq h4
            have hl := splitVerts_length fs1
            have hl2 := dropSeqend_length (splitVerts fs1).2
            rw [Rd.bind_ok (by rw [Rd.run_withFuel]; exact h3)]
            simp only
            rw [Rd.bind_ok h5, Rd.bind_ok (ih h6 (by omega))]
            rfl
          · simp only [if_neg h3]
            rw [Rd.bind_ok (ih (slot := none) hy (by omega))]
            rfl

theorem readEntities_eq {fs : List Flat} {s s' : Stream} (h : Feeds s fs s') :
    ∃ fuel, fs.length < fuel ∧ readEntities s = (.ok (collect fuel fs), s') :=
  ⟨s.length + 1, by have := h.length; omega,
    collectEntities_eq _ (slot := none) h (by have := h.length; omega)⟩

/-! ### What is written -/

/-- One list after the other. -/
inductive Joined {α β : Type} (R : α → List β → Prop) : List α → List β → Prop
  | nil : Joined R [] []
  | cons {a : α} {as : List α} {bs cs : List β} : R a bs → Joined R as cs →
      Joined R (a :: as) (bs ++ cs)

/-- What an attribute of an insert is read as. -/
def Att.Echo (v : Version) (wh : Bool) (a : Att) (fs : List Flat) : Prop :=
  let r : Rec EName.attribute.decls := Rec.child a.fields a.handle
  ∃ b, EName.attribute.Restored 0 v wh ⟨r, [], []⟩ b ∧
    if EName.mText.supported v = true then
      ∃ m, EName.mText.Restored 0 v wh (mTextEntry r.common a.mtext []) m ∧
        fs = [⟨.attribute, 0, b⟩, ⟨.mText, 0, m⟩]
    else fs = [⟨.attribute, 0, b⟩]

/-- What a vertex is read as. -/
def Vert.Echo (v : Version) (wh : Bool) (polyFlags : I32) (x : Vert) (fs : List Flat) : Prop :=
  ∃ b, EName.vertex.Restored 0 v wh
      ⟨Rec.child (Vert.adjust polyFlags x.fields) x.handle, [], []⟩ b ∧
    fs = [⟨.vertex, 0, b⟩]

/-- What the entities attached to an entity are read as. -/
def Extra.Echo (v : Version) (wh : Bool) (xs : List XData) : Flat → Extra → List Flat → Prop
  | ⟨.attribute, _, e⟩, x, fs =>
    if EName.mText.supported v = true then
      ∃ m, EName.mText.Restored 0 v wh (mTextEntry e.fields.common x.mtext xs) m ∧
        fs = [⟨.mText, 0, m⟩]
    else fs = []
  | ⟨.attributeDefinition, _, e⟩, x, fs =>
    if EName.mText.supported v = true then
      ∃ m, EName.mText.Restored 0 v wh (mTextEntry e.fields.common x.mtext xs) m ∧
        fs = [⟨.mText, 0, m⟩]
    else fs = []
  | ⟨.insert, _, _⟩, x, fs =>
    if x.atts = [] then fs = []
    else ∃ as s, Joined (Att.Echo v wh) x.atts as ∧ fs = as ++ [⟨.seqend, 0, s⟩]
  | ⟨.polyline, _, e⟩, x, fs =>
    ∃ vs s, Joined (Vert.Echo v wh (e.fields 21 : I32)) x.verts vs ∧ fs = vs ++ [⟨.seqend, 0, s⟩]
  | _, _, fs => fs = []

/-- What an entity is read as. -/
def Entity.Echo (v : Version) (wh : Bool) (e : Entity) (fs : List Flat) : Prop :=
  if e.kind.supported v = true then
    ∃ b cs, e.kind.Restored e.num v wh { e.entry with xdata := e.ownXData v wh } b ∧
      (Flat.wantsAtts ⟨e.kind, e.sub, b⟩ = true ↔ e.kind = .insert ∧ e.extra.atts ≠ []) ∧
      Extra.Echo v wh e.entry.xdata e.toFlat e.extra cs ∧ fs = ⟨e.kind, e.sub, b⟩ :: cs
  else fs = []

/-! #### Whether an insert says that it has attributes -/

theorem insert_hits (m : Mode) (c : Int) (h : hits (EName.insert.kind.arms m) c 18 = true) :
    c = 66 := by
  by_contra hc
  have : ∀ a ∈ Ent.insertArms, a.act.hits 18 = true → a.code = 66 := by decide +kernel
  unfold hits at h
  cases hf : findArm (EName.insert.kind.arms m) c with
  | none => rw [hf] at h; cases h
  | some a =>
    rw [hf] at h
    have h1 := List.mem_of_find?_eq_some hf
    have h2 := List.find?_some hf
    exact hc ((beq_iff_eq.mp h2).symm.trans (this a h1 h))

theorem insert_fold (ps : List CodePair) (st : Mode × Rec EName.insert.decls) (m : Mode)
    (r : Rec EName.insert.decls)
    (h : foldStaged EName.insert.kind.arms EName.insert.kind.next st ps = .ok (m, r))
    (h66 : ∀ p ∈ ps, p.code = 66 → p = .newI16 66 1#16) :
    (r 18 : Bool) = ((st.2 18 : Bool) || ps.any fun p => p.code == 66) := by
  induction ps generalizing st with
  | nil =>
    rw [foldStaged] at h
    cases h
    exact (Bool.or_false _).symm
  | cons p ps ih =>
    rw [foldStaged] at h
    cases ha : applyPair (EName.insert.kind.arms st.1) st.2 p with
    | error e => rw [ha] at h; cases h
    | ok r1 =>
      rw [ha] at h
      have := ih _ h fun q hq => h66 q (List.mem_cons_of_mem _ hq)
      refine this.trans ?_
      rw [List.any_cons]
      by_cases hc : p.code = 66
      · have hp := h66 p List.mem_cons_self hc
        subst hp
        have ha' := armOn_apply (arms := EName.insert.kind.arms st.1) (i := 18) (code := 66)
          (act := .set .asBool) rfl st.2 (.newI16 66 1#16) rfl
        rw [ha] at ha'
        have hr : r1 = st.2.set 18 true := Except.ok.inj ha'
        have h1 : (r1 18 : Bool) = true := by rw [hr]; exact Rec.set_self _ _ _
        change ((r1 18 : Bool) || _) = ((st.2 18 : Bool) || (true || _))
        rw [h1, Bool.true_or]
        exact (Bool.or_true _).symm
      · have hh : hits (EName.insert.kind.arms st.1) p.code 18 = false := by
          rw [Bool.eq_false_iff]
          exact fun h => hc (insert_hits _ _ h)
        have h1 : (r1 18 : Bool) = (st.2 18 : Bool) :=
          applyPair_frame (EName.insert.frame st.1) ha hh
        change ((r1 18 : Bool) || _) = _
        rw [h1, beq_eq_false_iff_ne.mpr hc, Bool.false_or]

theorem insert_66 (n : Nat) (wh : Bool) : ∀ g ∈ EName.insert.statements n wh,
    (66 : Int) ∉ g.cmd.codes ∨
    g = { cmd := .const (.newI16 66 1#16), cond := fun _ => decide (n = 1) } := by
  simp only [EName.statements, commonHead, commonCmds, EName.kind, Ent.insertCmds,
    List.cons_append, List.nil_append]
  repeat' first
    | exact fun _ h => absurd h List.not_mem_nil
    | (refine List.forall_mem_cons.mpr ⟨?_, ?_⟩)
    | exact .inl (by decide)
    | exact .inr rfl
    | exact .inl (by simp [Cmd.codes, FWrite.codes])

theorem insert_says {n : Nat} {v : Version} {wh : Bool} {a b : Entry EName.insert.decls}
    {xs : List XData} (h : EName.insert.Reads n v wh a xs b) :
    (b.fields 18 : Bool) = decide (n = 1) := by
  obtain ⟨m, r, hf, _, hb, _⟩ := h
  have hm : ∀ p ∈ emitAll (EName.insert.statements n wh) v a.fields, p.code = 66 →
      p = .newI16 66 1#16 ∧ n = 1 := by
    intro p hp hc
    obtain ⟨g, hg, hh, hp⟩ := mem_emitAll hp
    rcases insert_66 n wh g hg with h | rfl
    · exact absurd (g.cmd.mem_codes _ p hp) (hc ▸ h)
    · refine ⟨List.mem_singleton.mp hp, ?_⟩
      rw [GCmd.holds, Bool.and_eq_true] at hh
      exact of_decide_eq_true hh.2
  have := insert_fold _ _ _ _ hf fun p hp hc => (hm p hp hc).1
  have hb' : (b.fields 18 : Bool) = (r 18 : Bool) := by rw [hb]; rfl
  rw [hb', this]
  change (false || _) = _
  rw [Bool.false_or]
  by_cases hn : n = 1
  · subst hn
    rw [decide_eq_true rfl, List.any_eq_true]
    refine ⟨.newI16 66 1#16, ?_, rfl⟩
    refine List.mem_flatMap.mpr
      ⟨{ cmd := .const (.newI16 66 1#16), cond := fun _ => decide (1 = 1) }, ?_, ?_⟩
    · exact List.mem_append_right _ (List.mem_append_right _ (List.mem_cons_of_mem _
        List.mem_cons_self))
    · exact List.mem_singleton.mpr rfl
  · rw [decide_eq_false hn, Bool.eq_false_iff]
    intro h
    obtain ⟨p, hp, hc⟩ := List.any_eq_true.mp h
    exact hn (hm p hp (beq_iff_eq.mp hc)).2

/-! #### One entity -/

theorem nextEntity_of {s s' : Stream} {x : Flat}
    (h : ∀ fuel, readEntity (fuel + 1) s = (.ok (some x), s')) :
    nextEntity s = (.ok (some x), s') := by
  unfold nextEntity
  rw [Rd.run_withFuel, h]

/-- A reader that stops here. -/
theorem nextEntity_end {s : Stream} {t : Str} (ht : t = str!"ENDSEC" ∨ t = str!"ENDBLK") :
    nextEntity (toStream [.newStr 0 t] ++ s) = (.ok none, toStream [.newStr 0 t] ++ s) := by
  rcases ht with rfl | rfl <;> rfl

/-- One more entity in front, given the pairs of the entity. -/
theorem Feeds.front {k : EName} {n : Nat} {v : Version} (hn : k.Num n v)
    (hs : k.supported v = true) (wh : Bool) (a : Entry k.decls) (hext : ExtGroup.AllPlain a.ext)
    (xs : List XData) {rest s' : Stream} (hr : StartsZero rest) {fs : List Flat}
    (h : Feeds rest fs s') : ∃ b, k.Restored n v wh { a with xdata := xs } b ∧
      (∀ (hk : k = .insert), ((hk ▸ b : Entry EName.insert.decls).fields 18 : Bool) =
        decide (n = 1)) ∧
      Feeds (toStream (k.front n v wh a ++ xs.flatMap fun x => x.pairs v) ++ rest)
        (⟨k, k.subOf n, b⟩ :: fs) s' := by
  obtain ⟨b, hb, hread⟩ := k.read_front n v wh (EName.check_num hn hs wh) a hext xs rest hr
  refine ⟨b, EName.reads_restored hn hs hb, ?_, .cons (nextEntity_of hread) ?_ h⟩
  · intro hk
    subst hk
    exact insert_says hb
  · obtain ⟨t, ht⟩ := k.front_cons n v wh a
    rw [ht]
    simp [toStream]
    omega

theorem seqend_written (v : Version) (wh : Bool) (h : Handle) (xs : List XData) :
    seqendPairs wh h ++ (xs.flatMap fun x => x.pairs v) =
      EName.seqend.written v (commonHead Ent.seqendSpec wh) []
        ⟨(Rec.dflt EName.seqend.decls).set 0 h, [], []⟩ xs := by
  cases wh <;> simp [EName.written, seqendPairs, commonHead, emitAll, GCmd.emit, GCmd.holds,
    versionGate] <;> first | rfl | exact ⟨rfl, rfl⟩ | skip

theorem Feeds.seqend (v : Version) (wh : Bool) (hd : Handle)
    (xs : List XData) {rest s' : Stream} (hr : StartsZero rest) {fs : List Flat}
    (h : Feeds rest fs s') : ∃ b,
      Feeds (toStream (seqendPairs wh hd ++ xs.flatMap fun x => x.pairs v) ++ rest)
        (⟨.seqend, 0, b⟩ :: fs) s' := by
  obtain ⟨r, _, hread⟩ := EName.read_written .seqend v (commonHead Ent.seqendSpec wh) []
    (fun g hg => EName.steady .seqend 0 wh g (List.mem_append_left _ 
      ((List.mem_append.mp hg).elim id fun h => absurd h List.not_mem_nil)))
    (as := [(Mode.start, { cmd := .field 0 (.one 5 .handle), cond := fun _ => wh })])
    (m := Mode.start) rfl (fun x hx => .inl (by rw [List.mem_singleton.mp hx]; rfl))
    (fun x hx => by rw [List.mem_singleton.mp hx]; rfl)
    ⟨(Rec.dflt EName.seqend.decls).set 0 hd, [], []⟩ (fun _ h => absurd h List.not_mem_nil)
    xs rest hr
  rw [← seqend_written] at hread
  exact ⟨_, .cons (nextEntity_of hread) (by simp [seqendPairs, toStream]; omega) h⟩

/-! #### Entities with others attached -/

theorem ZeroOrNil.starts_append {ps : List CodePair} (h : ZeroOrNil ps) {rest : Stream}
    (hr : StartsZero rest) : StartsZero (toStream ps ++ rest) := by
  by_cases hp : ps = []
  · subst hp; exact hr
  · exact h.starts hp rest

theorem EName.pairs_bare {k : EName} {v : Version} (hs : k.supported v = true) (n : Nat)
    (wh : Bool) (r : Rec k.decls) (post : List CodePair) :
    k.pairs n v wh ⟨r, [], []⟩ post = k.front n v wh ⟨r, [], []⟩ ++ post := by
  unfold EName.pairs
  rw [if_pos hs]
  simp

theorem Feeds.mText {v : Version} (hs : EName.mText.supported v = true) (wh : Bool)
    (c : Rec commonDecls) (m : MTextRec) (xs : List XData) {rest s' : Stream}
    (hr : StartsZero rest) {fs : List Flat} (h : Feeds rest fs s') :
    ∃ b, EName.mText.Restored 0 v wh (mTextEntry c m xs) b ∧
      Feeds (toStream (mTextPairs v wh c m ++ xs.flatMap fun x => x.pairs v) ++ rest)
        (⟨.mText, 0, b⟩ :: fs) s' := by
  obtain ⟨b, hb, _, hf⟩ := Feeds.front (k := .mText) (n := 0) (v := v) rfl hs wh
    (mTextEntry c m []) (fun _ h => absurd h List.not_mem_nil) xs hr h
  refine ⟨b, hb, ?_⟩
  have : mTextPairs v wh c m = EName.mText.front 0 v wh (mTextEntry c m []) := by
    unfold mTextPairs EName.pairs
    rw [if_pos hs]
    simp [mTextEntry]
  rw [this]
  exact hf

theorem mTextPairs_old {v : Version} (hs : ¬ EName.mText.supported v = true) (wh : Bool)
    (c : Rec commonDecls) (m : MTextRec) : mTextPairs v wh c m = [] := by
  unfold mTextPairs EName.pairs
  rw [if_neg hs]

theorem mTextPairs_ne {v : Version} (hs : EName.mText.supported v = true) (wh : Bool)
    (c : Rec commonDecls) (m : MTextRec) : mTextPairs v wh c m ≠ [] := by
  unfold mTextPairs EName.pairs
  rw [if_pos hs]
  obtain ⟨t, ht⟩ := EName.mText.front_cons 0 v wh (mTextEntry c m [])
  unfold mTextEntry at ht
  rw [ht]
  simp

theorem mTextPairs_zero (v : Version) (wh : Bool) (c : Rec commonDecls) (m : MTextRec) :
    ZeroOrNil (mTextPairs v wh c m) := EName.pairs_zero ..

theorem Feeds.atts (v : Version) (wh : Bool) (as : List Att) {rest s' : Stream}
    (hr : StartsZero rest) {fs : List Flat} (h : Feeds rest fs s') :
    ∃ cs, Joined (Att.Echo v wh) as cs ∧
      Feeds (toStream (as.flatMap (Att.pairs v wh)) ++ rest) (cs ++ fs) s' := by
  induction as with
  | nil => exact ⟨[], .nil, h⟩
  | cons a as ih =>
    obtain ⟨cs, hj, hc⟩ := ih
    have hz : StartsZero (toStream (as.flatMap (Att.pairs v wh)) ++ rest) :=
      (ZeroOrNil.flatMap (fun a => EName.pairs_zero ..) _).starts_append hr
    let r : Rec EName.attribute.decls := Rec.child a.fields a.handle
    have hp : Att.pairs v wh a = EName.attribute.front 0 v wh ⟨r, [], []⟩ ++
        mTextPairs v wh r.common a.mtext :=
      EName.pairs_bare (k := .attribute) rfl 0 wh r _
    by_cases hs : EName.mText.supported v = true
    · obtain ⟨m, hm, hf⟩ := Feeds.mText hs wh r.common a.mtext [] hz hc
      rw [List.flatMap_nil, List.append_nil] at hf
      obtain ⟨b, hb, _, hf'⟩ := Feeds.front (k := .attribute) (n := 0) (v := v) rfl rfl wh
        ⟨r, [], []⟩ (fun _ h => absurd h List.not_mem_nil) []
        ((mTextPairs_zero ..).starts_append hz) hf
      refine ⟨[⟨.attribute, 0, b⟩, ⟨.mText, 0, m⟩] ++ cs, .cons ⟨b, hb, ?_⟩ hj, ?_⟩
      · rw [if_pos hs]
        exact ⟨m, hm, rfl⟩
      · rw [List.flatMap_cons, hp]
        simp only [toStream_append, List.append_assoc, List.flatMap_nil, List.append_nil] at hf' ⊢
        exact hf'
    · obtain ⟨b, hb, _, hf'⟩ := Feeds.front (k := .attribute) (n := 0) (v := v) rfl rfl wh
        ⟨r, [], []⟩ (fun _ h => absurd h List.not_mem_nil) [] hz hc
      refine ⟨[⟨.attribute, 0, b⟩] ++ cs, .cons ⟨b, hb, ?_⟩ hj, ?_⟩
      · rw [if_neg hs]
      · rw [List.flatMap_cons, hp, mTextPairs_old hs]
        simp only [toStream_append, List.append_assoc, List.flatMap_nil, List.append_nil] at hf' ⊢
        exact hf'

theorem Feeds.verts (v : Version) (wh : Bool) (pf : I32) (xs : List Vert) {rest s' : Stream}
    (hr : StartsZero rest) {fs : List Flat} (h : Feeds rest fs s') :
    ∃ cs, Joined (Vert.Echo v wh pf) xs cs ∧
      Feeds (toStream (xs.flatMap (Vert.pairs v wh pf)) ++ rest) (cs ++ fs) s' := by
  induction xs with
  | nil => exact ⟨[], .nil, h⟩
  | cons x xs ih =>
    obtain ⟨cs, hj, hc⟩ := ih
    have hz : StartsZero (toStream (xs.flatMap (Vert.pairs v wh pf)) ++ rest) :=
      (ZeroOrNil.flatMap (fun a => EName.pairs_zero ..) _).starts_append hr
    let r : Rec EName.vertex.decls := Rec.child (Vert.adjust pf x.fields) x.handle
    have hp : Vert.pairs v wh pf x = EName.vertex.front 0 v wh ⟨r, [], []⟩ :=
      (EName.pairs_bare (k := .vertex) rfl 0 wh r _).trans (List.append_nil _)
    obtain ⟨b, hb, _, hf'⟩ := Feeds.front (k := .vertex) (n := 0) (v := v) rfl rfl wh
      ⟨r, [], []⟩ (fun _ h => absurd h List.not_mem_nil) [] hz hc
    refine ⟨[⟨.vertex, 0, b⟩] ++ cs, .cons ⟨b, hb, rfl⟩ hj, ?_⟩
    rw [List.flatMap_cons, hp]
    simp only [toStream_append, List.append_assoc, List.flatMap_nil, List.append_nil] at hf' ⊢
    exact hf'

theorem Entity.echo_none (v : Version) (wh : Bool) (e : Entity) (xs : List XData)
    (hp : e.post v wh = []) : Extra.Echo v wh xs e.toFlat e.extra [] := by
  obtain ⟨⟨k, n, en⟩, x⟩ := e
  cases k
  case «attribute» | attributeDefinition =>
    simp only [Entity.post] at hp
    simp only [Extra.Echo]
    rw [if_neg fun hs => mTextPairs_ne hs _ _ _ hp]
    trivial
  case insert =>
    simp only [Entity.post] at hp
    have ha : x.atts = [] := by
      cases h : x.atts with
      | nil => rfl
      | cons a as => rw [h] at hp; simp [seqendPairs] at hp
    simp only [Extra.Echo]
    rw [if_pos ha]
    trivial
  case polyline => simp [Entity.post, seqendPairs] at hp
  all_goals rfl

theorem Entity.echo_some (v : Version) (wh : Bool) (e : Entity) (xs : List XData)
    (hp : e.post v wh ≠ []) {rest s' : Stream} (hr : StartsZero rest) {fs : List Flat}
    (h : Feeds rest fs s') : ∃ cs, Extra.Echo v wh xs e.toFlat e.extra cs ∧
      Feeds (toStream (e.post v wh ++ xs.flatMap fun x => x.pairs v) ++ rest) (cs ++ fs) s' := by
  obtain ⟨⟨k, n, en⟩, x⟩ := e
  cases k
  case «attribute» | attributeDefinition =>
    simp only [Entity.post] at hp ⊢
    by_cases hs : EName.mText.supported v = true
    · obtain ⟨m, hm, hf⟩ := Feeds.mText hs wh en.fields.common x.mtext xs hr h
      refine ⟨[⟨.mText, 0, m⟩], ?_, hf⟩
      simp only [Extra.Echo]
      rw [if_pos hs]
      exact ⟨m, hm, rfl⟩
    · exact absurd (mTextPairs_old hs _ _ _) hp
  case insert =>
    simp only [Entity.post] at hp ⊢
    obtain ⟨b, hb⟩ := Feeds.seqend v wh x.seqend xs hr h
    have hz : StartsZero (toStream (seqendPairs wh x.seqend ++
        xs.flatMap fun x => x.pairs v) ++ rest) := ⟨_, _, rfl, rfl⟩
    obtain ⟨cs, hj, hc⟩ := Feeds.atts v wh x.atts hz hb
    have hne : x.atts ≠ [] := by
      intro h
      simp [h] at hp
    refine ⟨cs ++ [⟨.seqend, 0, b⟩], ?_, ?_⟩
    · simp only [Extra.Echo]
      rw [if_neg hne]
      exact ⟨cs, b, hj, rfl⟩
    · rw [List.isEmpty_eq_false_iff.mpr hne]
      simp only [toStream_append, List.append_assoc, cond_false, List.singleton_append] at hc ⊢
      exact hc
  case polyline =>
    simp only [Entity.post] at hp ⊢
    obtain ⟨b, hb⟩ := Feeds.seqend v wh x.seqend xs hr h
    have hz : StartsZero (toStream (seqendPairs wh x.seqend ++
        xs.flatMap fun x => x.pairs v) ++ rest) := ⟨_, _, rfl, rfl⟩
    obtain ⟨cs, hj, hc⟩ := Feeds.verts v wh (en.fields 21 : I32) x.verts hz hb
    refine ⟨cs ++ [⟨.seqend, 0, b⟩], ⟨cs, b, hj, rfl⟩, ?_⟩
    simp only [toStream_append, List.append_assoc, List.singleton_append] at hc ⊢
    exact hc
  all_goals exact absurd rfl hp

theorem wantsAtts_insert (n : Nat) (b : Entry EName.insert.decls) :
    Flat.wantsAtts ⟨.insert, n, b⟩ = (b.fields 18 : Bool) := rfl

theorem wantsAtts_other {k : EName} (hk : k ≠ .insert) (n : Nat) (b : Entry k.decls) :
    Flat.wantsAtts ⟨k, n, b⟩ = false := by
  cases k <;> first | exact absurd rfl hk | rfl

theorem wants_iff {k : EName} {n m : Nat} {en : Entry k.decls} {x : Extra} (b : Entry k.decls)
    (hb : ∀ (hk : k = .insert), ((hk ▸ b : Entry EName.insert.decls).fields 18 : Bool) =
      decide (Entity.num ⟨⟨k, n, en⟩, x⟩ = 1)) :
    Flat.wantsAtts ⟨k, m, b⟩ = true ↔ k = .insert ∧ x.atts ≠ [] := by
  by_cases hk : k = .insert
  · subst hk
    have h := hb rfl
    rw [wantsAtts_insert]
    refine (iff_of_eq (congrArg (fun b : Bool => b = true) h)).trans ?_
    have : ∀ l : List Att, decide ((bif l.isEmpty then 0 else 1) = 1) = true ↔ l ≠ [] := by
      intro l
      cases l <;> simp
    exact (this x.atts).trans ⟨fun h => ⟨rfl, h⟩, And.right⟩
  · rw [wantsAtts_other hk]
    simp [hk]

/-- What is written for an entity is read as its echo. -/
theorem Feeds.entity (v : Version) (wh : Bool) (e : Entity) (hp : e.toFlat.Proper)
    (ho : ¬ e.toFlat.OldRotated v) (hext : ExtGroup.AllPlain e.entry.ext) {rest s' : Stream}
    (hr : StartsZero rest) {fs : List Flat} (h : Feeds rest fs s') :
    ∃ cs, e.Echo v wh cs ∧ Feeds (toStream (e.pairs v wh) ++ rest) (cs ++ fs) s' := by
  unfold Entity.Echo Entity.pairs EName.pairs
  by_cases hs : e.kind.supported v = true
  · rw [if_pos hs]
    obtain ⟨hnum, hsub⟩ := e.num_num hp ho
    have hw : ∀ b, (∀ (hk : e.kind = .insert),
        ((hk ▸ b : Entry EName.insert.decls).fields 18 : Bool) = decide (e.num = 1)) →
        (Flat.wantsAtts ⟨e.kind, e.sub, b⟩ = true ↔ e.kind = .insert ∧ e.extra.atts ≠ []) := by
      obtain ⟨⟨k, n, en⟩, x⟩ := e
      exact fun b hb => wants_iff b hb
    by_cases hpost : e.post v wh = []
    · obtain ⟨b, hb, hi, hf⟩ := Feeds.front hnum hs wh e.entry hext e.entry.xdata hr h
      rw [hsub] at hf
      refine ⟨[⟨e.kind, e.sub, b⟩], ?_, ?_⟩
      · rw [if_pos hs]
        refine ⟨b, [], ?_, hw b hi, e.echo_none v wh _ hpost, rfl⟩
        unfold Entity.ownXData
        rw [if_pos hpost]
        exact hb
      · rw [hpost, List.append_nil]
        exact hf
    · obtain ⟨cs, hc, hf⟩ := e.echo_some v wh e.entry.xdata hpost hr h
      have hz : StartsZero (toStream (e.post v wh ++
          e.entry.xdata.flatMap fun x => x.pairs v) ++ rest) := by
        rw [toStream_append, List.append_assoc]
        exact (e.post_zero v wh).starts hpost _
      obtain ⟨b, hb, hi, hf'⟩ := Feeds.front hnum hs wh e.entry hext [] hz hf
      rw [hsub] at hf'
      refine ⟨⟨e.kind, e.sub, b⟩ :: cs, ?_, ?_⟩
      · rw [if_pos hs]
        refine ⟨b, cs, ?_, hw b hi, hc, rfl⟩
        unfold Entity.ownXData
        rw [if_neg hpost]
        exact hb
      · simp only [toStream_append, List.append_assoc, List.flatMap_nil, List.append_nil] at hf' ⊢
        exact hf'
  · rw [if_neg hs]
    exact ⟨[], by rw [if_neg hs], h⟩

/-- The same for a list of entities. -/
theorem Feeds.entities (v : Version) (wh : Bool) (es : List Entity)
    (hp : ∀ e ∈ es, e.toFlat.Proper) (ho : ∀ e ∈ es, ¬ e.toFlat.OldRotated v)
    (hext : ∀ e ∈ es, ExtGroup.AllPlain e.entry.ext) {rest s' : Stream}
    (hr : StartsZero rest) {fs : List Flat} (h : Feeds rest fs s') :
    ∃ cs, Joined (Entity.Echo v wh) es cs ∧
      Feeds (toStream (es.flatMap (Entity.pairs v wh)) ++ rest) (cs ++ fs) s' := by
  induction es with
  | nil => exact ⟨[], .nil, h⟩
  | cons e es ih =>
    obtain ⟨cs, hj, hc⟩ := ih (fun e he => hp e (List.mem_cons_of_mem _ he))
      (fun e he => ho e (List.mem_cons_of_mem _ he))
      (fun e he => hext e (List.mem_cons_of_mem _ he))
    have hz : StartsZero (toStream (es.flatMap (Entity.pairs v wh)) ++ rest) :=
      (ZeroOrNil.flatMap (fun a => EName.pairs_zero ..) _).starts_append hr
    obtain ⟨ds, hd, hf⟩ := Feeds.entity v wh e (hp e List.mem_cons_self) (ho e List.mem_cons_self)
      (hext e List.mem_cons_self) hz hc
    refine ⟨ds ++ cs, .cons hd hj, ?_⟩
    rw [List.flatMap_cons, toStream_append, List.append_assoc, List.append_assoc]
    exact hf

/-! ### Collecting an echo -/

theorem splitAtts_echo {v : Version} {wh : Bool} (hs : ¬ EName.mText.supported v = true)
    {as : List Att} {cs : List Flat} (h : Joined (Att.Echo v wh) as cs) (fs : List Flat)
    (hf : ∀ x ∈ fs.head?, x.kind ≠ .attribute) :
    ∃ as', List.Forall₂ (Att.Restored v wh) as as' ∧ splitAtts (cs ++ fs) = (as', fs) := by
  induction h with
  | nil =>
    refine ⟨[], .nil, ?_⟩
    cases fs with
    | nil => rfl
    | cons x fs =>
      obtain ⟨k, n, e⟩ := x
      have := hf _ rfl
      cases k <;> first | exact absurd rfl this | rfl
  | cons ha _ ih =>
    obtain ⟨as', h1, h2⟩ := ih
    obtain ⟨b, hb, hc⟩ := ha
    rw [if_neg hs] at hc
    subst hc
    refine ⟨⟨Rec.bare b.fields, Rec.dflt _, autoReplaceHandle⟩ :: as', .cons ⟨b, hb, rfl⟩ h1, ?_⟩
    simp only [List.cons_append, List.nil_append, splitAtts]
    rw [h2]

theorem splitVerts_echo {v : Version} {wh : Bool} {pf : I32}
    {as : List Vert} {cs : List Flat} (h : Joined (Vert.Echo v wh pf) as cs) (fs : List Flat)
    (hf : ∀ x ∈ fs.head?, x.kind ≠ .vertex) :
    ∃ as', List.Forall₂ (Vert.Restored v wh pf) as as' ∧ splitVerts (cs ++ fs) = (as', fs) := by
  induction h with
  | nil =>
    refine ⟨[], .nil, ?_⟩
    cases fs with
    | nil => rfl
    | cons x fs =>
      obtain ⟨k, n, e⟩ := x
      have := hf _ rfl
      cases k <;> first | exact absurd rfl this | rfl
  | cons ha _ ih =>
    obtain ⟨as', h1, h2⟩ := ih
    obtain ⟨b, hb, hc⟩ := ha
    subst hc
    refine ⟨⟨Rec.bare b.fields, autoReplaceHandle⟩ :: as', .cons ⟨b, hb, rfl⟩ h1, ?_⟩
    simp only [List.cons_append, List.nil_append, splitVerts]
    rw [h2]

theorem echo_noMText {v : Version} {wh : Bool} (hs : ¬ EName.mText.supported v = true)
    {es : List Entity} {cs : List Flat} (h : Joined (Entity.Echo v wh) es cs) :
    ∀ x ∈ cs.head?, x.kind ≠ .mText := by
  induction h with
  | nil => intro x hx; cases hx
  | @cons e es bs cs he _ ih =>
    unfold Entity.Echo at he
    by_cases hk : e.kind.supported v = true
    · rw [if_pos hk] at he
      obtain ⟨b, ds, _, _, _, rfl⟩ := he
      intro x hx
      simp only [List.cons_append, List.head?_cons, Option.mem_def, Option.some.injEq] at hx
      subst hx
      intro h
      have h : e.kind = .mText := h
      rw [h] at hk
      exact hs hk
    · rw [if_neg hk] at he
      subst he
      exact ih

theorem splitMText_other {fs : List Flat} (h : ∀ x ∈ fs.head?, x.kind ≠ .mText) :
    splitMText fs = (none, fs) := by
  cases fs with
  | nil => rfl
  | cons x fs =>
    obtain ⟨k, n, e⟩ := x
    have := h _ rfl
    cases k <;> first | exact absurd rfl this | rfl

/-- Collecting the echo of one entity. -/
theorem collect_entity {v : Version} {wh : Bool} {e : Entity} (hw : e.Whole v)
    (hk : e.kind.supported v = true) {ds fs : List Flat} (he : e.Echo v wh ds)
    (hfs : ¬ EName.mText.supported v = true → ∀ x ∈ fs.head?, x.kind ≠ .mText) (n : Nat) :
    ∃ e', e.Restored v wh e' ∧ collect (n + 1) (ds ++ fs) = e' :: collect n fs := by
  unfold Entity.Echo at he
  rw [if_pos hk] at he
  obtain ⟨b, cs, hb, hwant, hx, rfl⟩ := he
  rw [List.cons_append, collect]
  obtain ⟨⟨k, m, en⟩, x⟩ := e
  have hatt : Extra.Echo v wh en.xdata ⟨k, m, en⟩ x cs → (k = .attribute ∨ k = .attributeDefinition) →
      ∃ e', Entity.Restored v wh ⟨⟨k, m, en⟩, x⟩ e' ∧
        withMText ⟨k, m, b⟩ (splitMText (cs ++ fs)).1 = e' ∧ (splitMText (cs ++ fs)).2 = fs := by
    rintro hx hk
    have hx' : if EName.mText.supported v = true then
        ∃ m, EName.mText.Restored 0 v wh (mTextEntry en.fields.common x.mtext en.xdata) m ∧
          cs = [⟨.mText, 0, m⟩]
        else cs = [] := by
      rcases hk with rfl | rfl <;> exact hx
    have hr : ∀ m', mTextRestored v wh en.fields.common x.mtext m' →
        Extra.Restored v wh ⟨k, m, en⟩ x { Extra.dflt with mtext := m' } := by
      intro m' hm
      rcases hk with rfl | rfl <;> exact ⟨m', hm, rfl⟩
    by_cases hs : EName.mText.supported v = true
    · rw [if_pos hs] at hx'
      obtain ⟨t, ht, rfl⟩ := hx'
      refine ⟨_, ⟨b, hb, _, hr (Rec.bare t.fields) ?_, rfl⟩, rfl, rfl⟩
      unfold mTextRestored
      rw [if_pos hs]
      exact ⟨_, t, ht, rfl⟩
    · rw [if_neg hs] at hx'
      subst hx'
      rw [List.nil_append, splitMText_other (hfs hs)]
      refine ⟨_, ⟨b, hb, _, hr (Rec.dflt _) ?_, rfl⟩, rfl, rfl⟩
      unfold mTextRestored
      rw [if_neg hs]
  by_cases h1 : k = .attribute ∨ k = .attributeDefinition
  · obtain ⟨e', he', h2, h3⟩ := hatt hx h1
    refine ⟨e', he', ?_⟩
    simp only [if_pos h1]
    rw [h2, h3]
  · simp only [if_neg h1]
    by_cases h2 : k = .insert ∧ x.atts ≠ []
    · rw [if_pos (hwant.mpr h2)]
      obtain ⟨rfl, hne⟩ := h2
      have hs : ¬ EName.mText.supported v = true := fun hs => hne (hw hs rfl)
      simp only [Extra.Echo, if_neg hne] at hx
      obtain ⟨as, s, hj, rfl⟩ := hx
      obtain ⟨as', ha, hsplit⟩ := splitAtts_echo hs hj (⟨.seqend, 0, s⟩ :: fs) (by
        intro x hx
        simp only [List.head?_cons, Option.mem_def, Option.some.injEq] at hx
        subst hx
        simp)
      rw [List.append_assoc, List.singleton_append, hsplit]
      exact ⟨_, ⟨b, hb, _, ⟨as', ha, rfl⟩, rfl⟩, by simp [dropSeqend]⟩
    · rw [if_neg (fun h => h2 (hwant.mp h))]
      by_cases h3 : k = .polyline
      · simp only [if_pos h3]
        subst h3
        obtain ⟨as, s, hj, rfl⟩ := hx
        obtain ⟨as', ha, hsplit⟩ := splitVerts_echo hj (⟨.seqend, 0, s⟩ :: fs) (by
          intro x hx
          simp only [List.head?_cons, Option.mem_def, Option.some.injEq] at hx
          subst hx
          simp)
        rw [List.append_assoc, List.singleton_append, hsplit]
        exact ⟨_, ⟨b, hb, _, ⟨as', ha, rfl⟩, rfl⟩, by simp [dropSeqend]⟩
      · simp only [if_neg h3]
        by_cases h4 : k = .insert
        · subst h4
          have ha : x.atts = [] := by
            by_contra h
            exact h2 ⟨rfl, h⟩
          simp only [Extra.Echo, if_pos ha] at hx
          subst hx
          exact ⟨_, ⟨b, hb, _, ⟨[], by rw [ha]; exact .nil, rfl⟩, rfl⟩, rfl⟩
        · have h5 : cs = [] ∧ Extra.Restored v wh ⟨k, m, en⟩ x Extra.dflt := by
            cases k
            case «attribute» => exact absurd (.inl rfl) h1
            case attributeDefinition => exact absurd (.inr rfl) h1
            case insert => exact absurd rfl h4
            case polyline => exact absurd rfl h3
            all_goals exact ⟨hx, rfl⟩
          obtain ⟨rfl, hr⟩ := h5
          exact ⟨_, ⟨b, hb, _, hr, rfl⟩, rfl⟩

/-- Collecting the echo of a list. -/
theorem collect_echo {v : Version} {wh : Bool} {es : List Entity} {cs : List Flat}
    (h : Joined (Entity.Echo v wh) es cs) (hw : ∀ e ∈ es, e.Whole v) (n : Nat)
    (hn : cs.length < n) :
    List.Forall₂ (Entity.Restored v wh) (es.filter fun e => e.kind.supported v) (collect n cs) := by
  induction h generalizing n with
  | nil =>
    obtain ⟨n, rfl⟩ : ∃ m, n = m + 1 := ⟨n - 1, by omega⟩
    exact .nil
  | @cons e es ds cs he hj ih =>
    have ih := ih fun e he => hw e (List.mem_cons_of_mem _ he)
    rw [List.length_append] at hn
    by_cases hk : e.kind.supported v = true
    · obtain ⟨n, rfl⟩ : ∃ m, n = m + 1 := ⟨n - 1, by omega⟩
      obtain ⟨e', he', hc⟩ := collect_entity (hw e List.mem_cons_self) hk he
        (fun hs => echo_noMText hs hj) n
      rw [hc, List.filter_cons_of_pos (p := fun e : Entity => e.kind.supported v) hk]
      refine .cons he' (ih n ?_)
      have : 0 < ds.length := by
        unfold Entity.Echo at he
        rw [if_pos hk] at he
        obtain ⟨b, cs, _, _, _, rfl⟩ := he
        simp
      omega
    · have hd : ds = [] := by
        unfold Entity.Echo at he
        rw [if_neg hk] at he
        exact he
      subst hd
      rw [List.filter_cons_of_neg (p := fun e : Entity => e.kind.supported v) hk]
      exact ih n (by simpa using hn)

end Dxf
