import Verif.Spec.Twice
import Verif.Lemmas.OrderHeader

/-! Values that are given twice. -/

namespace Dxf

/-! ### In general -/

/-- After the second step the first one is forgotten. -/
def Covers {σ π : Type} (act : π → σ → Except DxfErr σ) (p q : π) : Prop :=
  ∀ st st1 st2, act p st = .ok st1 → act q st1 = .ok st2 → act q st = .ok st2

/-- A step that is forgotten later may be left out. -/
theorem foldAct_drop {σ π : Type} {act : π → σ → Except DxfErr σ} {p q : π} {ps l : List π}
    (hc : Covers act p q) (hs : ∀ r ∈ ps, Covers act p r ∨ Swaps act p r) : ∀ {st st' : σ},
    foldAct act st (p :: (ps ++ q :: l)) = .ok st' → foldAct act st (ps ++ q :: l) = .ok st' := by
  have cover : ∀ r l, Covers act p r → ∀ {st st' : σ},
      foldAct act st (p :: r :: l) = .ok st' → foldAct act st (r :: l) = .ok st' := by
    intro r l h st st' e
    obtain ⟨st1, h1, h2⟩ := except_bind_ok e
    obtain ⟨st2, h3, h4⟩ := except_bind_ok h2
    rw [foldAct_cons (h _ _ _ h1 h3)]
    exact h4
  induction ps with
  | nil => exact fun {_ _} e => cover q l hc e
  | cons r ps ih =>
    intro st st' e
    rcases hs r (by simp) with hr | hr
    · exact cover r _ hr e
    · obtain ⟨st1, h1, h2⟩ := except_bind_ok e
      obtain ⟨st2, h3, h4⟩ := except_bind_ok h2
      obtain ⟨st3, h5, h6⟩ := hr _ _ _ h1 h3
      rw [List.cons_append, foldAct_cons h5]
      refine ih (fun r hr => hs r (by simp [hr])) ?_
      rw [foldAct_cons h6]
      exact h4

/-- Other pairs inside an item that have the same effect. -/
theorem item_replace {σ : Type} (eof : Bool) {step : CodePair → σ → Rd σ}
    {act : CodePair → σ → Except DxfErr σ} (hstep : ∀ p st, LocC Outside (step p st))
    {p q : CodePair} {ps qs : List CodePair}
    (hp : ∀ r ∈ p :: ps, Outside r.code ∧ r.code ≠ 0 ∧ ∀ st, step r st = Rd.lift (act r st))
    (hq : ∀ r ∈ q :: qs, Outside r.code ∧ r.code ≠ 0 ∧ ∀ st, step r st = Rd.lift (act r st))
    (hl : ps.length ≤ qs.length) {st st1 st2 : σ} (f1 : foldAct act st1 (p :: ps) = .ok st2)
    (f2 : foldAct act st1 (q :: qs) = .ok st2) {u z : Stream}
    (hfi : Fine false (u ++ (toStream (p :: ps) ++ z)))
    (hh : Steps (pairBy step) st (u ++ (toStream (p :: ps) ++ z)) st1 (toStream (p :: ps) ++ z)) :
    Rd.withFuel (fun n => itemLoop eof step n st) (u ++ (toStream (q :: qs) ++ z)) =
      Rd.withFuel (fun n => itemLoop eof step n st) (u ++ (toStream (p :: ps) ++ z)) := by
  have l1 := fold_loop eof (fun r h => ⟨(hp r h).2.1, (hp r h).1.2, (hp r h).2.2⟩) f1
  have l2 := fold_loop eof (fun r h => ⟨(hq r h).2.1, (hq r h).1.2, (hq r h).2.2⟩) f2
  simp only [toStream_cons, List.cons_append] at hfi hh l1 l2 ⊢
  obtain ⟨_, n, hn, h1, h2⟩ := Steps.loop (pairBy_passes hstep)
    (f := fun n st => itemLoop eof step n st) (pairBy_loop eof) (q := p) (q' := q)
    (z' := toStream qs ++ z) (hp p (by simp)).1 (hq q (by simp)).1
    (by simp only [List.length_append, toStream_length]; omega) hh hfi
  rw [Rd.run_withFuel, Rd.run_withFuel]
  have e1 : (u ++ some (.ok p) :: (toStream ps ++ z)).length + 1 =
      (u.length + z.length + 1 - n) + (p :: ps).length + n := by
    simp only [List.length_append, List.length_cons, toStream_length]; omega
  have e2 : (u ++ some (.ok q) :: (toStream qs ++ z)).length + 1 =
      (u.length + z.length + 1 - n) + (q :: qs).length + n := by
    simp only [List.length_append, List.length_cons, toStream_length]; omega
  rw [e1, e2, h1, h2, l1, l2]

/-- A value that is given again later in the same item. -/
theorem item_twice {σ : Type} (eof : Bool) {step : CodePair → σ → Rd σ}
    {act : CodePair → σ → Except DxfErr σ} (hstep : ∀ p st, LocC Outside (step p st))
    {p q : CodePair} {ps : List CodePair} (hpq : q.code = p.code)
    (hok : ∀ r ∈ p :: (ps ++ [q]), Outside r.code ∧ r.code ≠ 0 ∧
      ∀ st, step r st = Rd.lift (act r st))
    (hc : ∀ r ∈ ps ++ [q], r.code = p.code → Covers act p r)
    (hs : ∀ r ∈ ps, r.code ≠ p.code → Covers act p r ∨ Swaps act p r) {st st1 st2 : σ} {u z : Stream}
    (hfi : Fine false (u ++ (toStream (ps ++ [q]) ++ z)))
    (hh : Steps (pairBy step) st (u ++ (toStream (ps ++ [q]) ++ z)) st1 (toStream (ps ++ [q]) ++ z))
    (hh' : Steps (pairBy step) st1 (toStream (p :: (ps ++ [q])) ++ z) st2 z) :
    Rd.withFuel (fun n => itemLoop eof step n st) (u ++ (toStream (p :: (ps ++ [q])) ++ z)) =
      Rd.withFuel (fun n => itemLoop eof step n st) (u ++ (toStream (ps ++ [q]) ++ z)) := by
  have hfz : Fine false z := hfi.suffix ((List.suffix_append _ _).trans (List.suffix_append _ _))
  have hfp : Fine false (toStream (p :: (ps ++ [q])) ++ z) := by
    intro it hm
    rcases List.mem_append.mp hm with hm | hm
    · exact fine_toStream _ it hm
    · exact hfz it hm
  have f2 := steps_fold hstep (fun r h => ⟨(hok r h).2.1, (hok r h).1.2, (hok r h).2.2⟩) hfp hh'
  have f1 := foldAct_drop (l := []) (hc q (by simp) hpq) (fun r hr => by
    by_cases h : r.code = p.code
    · exact .inl (hc r (by simp [hr]) h)
    · exact hs r hr h) f2
  have hok' : ∀ r ∈ ps ++ [q], Outside r.code ∧ r.code ≠ 0 ∧
      ∀ st, step r st = Rd.lift (act r st) := fun r hr => hok r (List.mem_cons_of_mem _ hr)
  generalize hl : ps ++ [q] = l at *
  cases l with
  | nil => simp at hl
  | cons r rs => exact item_replace eof hstep hok' hok (by simp) f1 f2 hfi hh

/-! ### The items -/

theorem nextEntity_item {k : EName} {op : CodePair} {x : Str}
    (hop : op.code = 0 ∧ op.value = .str x) (hx : EName.ofType x = some k)
    (he : x ≠ str!"ENDSEC" ∧ x ≠ str!"ENDBLK") {y y' : Stream} (hl : y.length ≤ y'.length)
    (hs : Rd.withFuel (fun n => itemLoop k.kind.eof k.step n (Mode.start, Entry.dflt k.decls)) y' =
      Rd.withFuel (fun n => itemLoop k.kind.eof k.step n (Mode.start, Entry.dflt k.decls)) y)
    (hc : Calm (nextEntity (some (.ok op) :: y)).1) :
    nextEntity (some (.ok op) :: y') = nextEntity (some (.ok op) :: y) := by
  refine nextEntity_same (by simpa using hl) (fun n hn => ?_) hc
  have o1 := fun n y => readEntity_open n [] (by simp) op hop.1 x
    (by unfold CodePair.assertString; rw [hop.2]) (by simp [he]) y
  simp only [toStream_nil, List.nil_append] at o1
  generalize (some (Except.ok op) :: y' : Stream).length -
      (some (Except.ok op) :: y : Stream).length = m
  rw [show n + 1 + m = n + m + 1 by omega, o1]
  rw [o1] at hn ⊢
  unfold entityBody at hn ⊢
  simp only [hx] at hn ⊢
  rw [Rd.run_bind] at hn ⊢
  rw [Rd.run_bind, hs]
  rcases h1 : Rd.withFuel (fun n => itemLoop k.kind.eof k.step n (Mode.start, Entry.dflt k.decls)) y
    with ⟨e | st, t⟩
  · rfl
  · rw [h1] at hn
    dsimp only at hn ⊢
    cases hk : k.kind.sub st.1 with
    | some n => rfl
    | none =>
      simp only [hk] at hn ⊢
      exact readEntity_mono.le (by omega) _ hn

theorem nextObject_item {k : OName} {op : CodePair} {x : Str}
    (hop : op.code = 0 ∧ op.value = .str x) (hx : OName.ofType x = some k)
    (he : x ≠ str!"ENDSEC" ∧ x ≠ str!"ENDBLK") {y y' : Stream}
    (hs : Rd.withFuel (fun n => itemLoop k.kind.eof k.step n (OMode.start, Entry.dflt k.decls, {})) y' =
      Rd.withFuel (fun n => itemLoop k.kind.eof k.step n (OMode.start, Entry.dflt k.decls, {})) y) :
    nextObject (some (.ok op) :: y') = nextObject (some (.ok op) :: y) := by
  have : Rd.withFuel readObject (some (.ok op) :: y') =
      Rd.withFuel readObject (some (.ok op) :: y) := by
    rw [Rd.run_withFuel, Rd.run_withFuel]
    have o1 := fun n y => readObject_open n [] (by simp) op hop.1 x
      (by unfold CodePair.assertString; rw [hop.2]) (by simp [he]) y
    simp only [toStream_nil, List.nil_append] at o1
    rw [o1, o1]
    unfold objectBody
    simp only [hx]
    rw [Rd.run_bind, Rd.run_bind, hs]
  unfold nextObject
  rw [this]

theorem entries_item (K : TableKind) {xs : List (TableItem K)} {u y y' : Stream} {op : CodePair}
    (hop : op.code = 0 ∧ op.value = .str K.typeString) (hl : y.length ≤ y'.length)
    (hfi : Fine false (u ++ some (.ok op) :: y))
    (hh : Steps (oneEntry K) [] (u ++ some (.ok op) :: y) xs (some (.ok op) :: y))
    (hs : Rd.withFuel (fun n => itemLoop false (Entry.apply K.arms) n (Entry.dflt K.decls)) y' =
      Rd.withFuel (fun n => itemLoop false (Entry.apply K.arms) n (Entry.dflt K.decls)) y) :
    Same (Rd.withFuel K.read) (u ++ some (.ok op) :: y) (u ++ some (.ok op) :: y') := by
  rw [← entriesFrom_nil]
  refine Steps.same (oneEntry_passes K) (f := entriesFrom K) (oneEntry_loop K) (q := op) (q' := op)
    hop.1 hop.1 hl hh hfi fun k hc => ?_
  have o : ∀ k y, K.read (k + 1) (some (.ok op) :: y) = _ := fun k y =>
    read_entry K k [] (by simp) op hop.1 hop.2 y
  have same : entriesFrom K (k + 1) xs (some (.ok op) :: y') =
      entriesFrom K (k + 1) xs (some (.ok op) :: y) := by
    unfold entriesFrom
    rw [Rd.run_bind, Rd.run_bind, o, o, Rd.run_bind, Rd.run_bind, hs]
  have hb : Below (entriesFrom K (k + 1) xs) (entriesFrom K (k + 1 + (y'.length - y.length)) xs) :=
    .bind ((tableRead_mono K).le (by omega)) fun _ => .rfl
  rw [hb _ (by rw [same]; exact hc), same]
  exact .refl

theorem blockRead_item {y y' : Stream} (hl : y.length ≤ y'.length)
    (hs : Rd.withFuel (fun n => itemLoop false (Entry.apply Blocks.arms) n Block.dflt.entry) y' =
      Rd.withFuel (fun n => itemLoop false (Entry.apply Blocks.arms) n Block.dflt.entry) y) :
    Same Block.read y y' := by
  intro hc
  unfold Block.read at hc ⊢
  rw [Rd.run_withFuel] at hc ⊢
  rw [Rd.run_withFuel]
  have e1 : ∀ k, Block.readFrom (k + 1) Block.dflt y' = Block.readFrom (k + 1) Block.dflt y := by
    intro k
    unfold Block.readFrom
    rw [Rd.run_bind, Rd.run_bind, hs]
  have h3 := (blockReadFrom_mono Block.dflt).le (k := y.length + 1) (k' := y'.length + 1)
    (by omega) y' (by rw [e1]; exact hc)
  rw [h3, e1]
  exact .refl

theorem classes_item (v : Version) {cs : List Class} {u y y' : Stream} {op : CodePair} {s : Str}
    (hop : op.code = 0 ∧ op.value = .str s) (hsec : s ≠ str!"ENDSEC") (hl : y.length ≤ y'.length)
    (hfi : Fine false (u ++ some (.ok op) :: y))
    (hh : Steps (oneClass v) [] (u ++ some (.ok op) :: y) cs (some (.ok op) :: y))
    (hs : Rd.withFuel (fun n => itemLoop false (fun p c => Rd.lift (Class.apply v p c)) n
        (if v ≤ .r13 then { Class.dflt with recordName := s } else Class.dflt)) y' =
      Rd.withFuel (fun n => itemLoop false (fun p c => Rd.lift (Class.apply v p c)) n
        (if v ≤ .r13 then { Class.dflt with recordName := s } else Class.dflt)) y) :
    Same (Rd.withFuel (Class.readAll v)) (u ++ some (.ok op) :: y) (u ++ some (.ok op) :: y') := by
  rw [← classesFrom_nil]
  refine Steps.same (oneClass_passes v) (f := classesFrom v) (oneClass_loop v) (q := op) (q' := op)
    hop.1 hop.1 hl hh hfi fun k hc => ?_
  have o : ∀ k y, Class.readAll v (k + 1) (some (.ok op) :: y) = _ := fun k y =>
    readAll_class v k [] (by simp) op hop.1 s (by unfold CodePair.assertString; rw [hop.2]) hsec y
  have same : classesFrom v (k + 1) cs (some (.ok op) :: y') =
      classesFrom v (k + 1) cs (some (.ok op) :: y) := by
    unfold classesFrom
    rw [Rd.run_bind, Rd.run_bind, o, o, Rd.run_bind, Rd.run_bind]
    unfold Class.read
    rw [hs]
  have hb : Below (classesFrom v (k + 1) cs) (classesFrom v (k + 1 + (y'.length - y.length)) cs) :=
    .bind ((classReadAll_mono v).le (by omega)) fun _ => .rfl
  rw [hb _ (by rw [same]; exact hc), same]
  exact .refl

/-! ### Arms -/

/-- An arm that gives one value. -/
def FRead.single : {t : Ty} → FRead t → Bool
  | _, .set _ => true
  | _, .axis _ => true
  | _, .lwSet _ => true
  | _, _ => false

/-- The same for what an arm does. -/
def Act.single {ds : List Decl} : Act ds → Bool
  | .on _ f => f.single
  | .custom _ _ => false

theorem setField_covers {v v1 v2 : LwVertex} {p q : CodePair} {f : LwField}
    (h1 : v.setField p f = .ok v1) (h2 : v1.setField q f = .ok v2) : v.setField q f = .ok v2 := by
  cases f <;>
    (unfold LwVertex.setField at h1 h2 ⊢
     dsimp only at h1 h2 ⊢
     obtain ⟨x, hx, rfl⟩ := except_map_ok h1
     obtain ⟨y, hy, rfl⟩ := except_map_ok h2
     rw [hy]
     rfl)

theorem FRead.apply_covers {t : Ty} {f : FRead t} (hf : f.single = true) {p q : CodePair}
    {v v1 v2 : t.den} (h1 : f.apply v p = .ok v1) (h2 : f.apply v1 q = .ok v2) :
    f.apply v q = .ok v2 := by
  cases f with
  | set c => exact h2
  | axis a =>
    unfold FRead.apply at h1 h2 ⊢
    dsimp only at h1 h2 ⊢
    obtain ⟨x, hx, rfl⟩ := except_map_ok h1
    obtain ⟨y, hy, rfl⟩ := except_map_ok h2
    rw [hy]
    cases a <;> rfl
  | lwSet a =>
    obtain ⟨l, l', init, rfl, h3, rfl⟩ := lwSet_ok h1
    obtain ⟨m, m', init', e, h4, rfl⟩ := lwSet_ok h2
    obtain ⟨rfl, e'⟩ := List.append_inj' e rfl
    cases (List.cons.inj e').1
    exact lwSet_run (setField_covers h3 h4)
  | push c => cases hf
  | pushAxis a => cases hf
  | lwNew => cases hf

theorem Act.apply_covers {ds : List Decl} {a : Act ds} (ha : a.single = true) {p q : CodePair}
    {r r1 r2 : Rec ds} (h1 : a.apply r p = .ok r1) (h2 : a.apply r1 q = .ok r2) :
    a.apply r q = .ok r2 := by
  cases a with
  | custom ts f => cases ha
  | on i f =>
    unfold Act.apply at h1 h2 ⊢
    dsimp only at h1 h2 ⊢
    obtain ⟨v, hv, rfl⟩ := except_map_ok h1
    obtain ⟨w, hw, rfl⟩ := except_map_ok h2
    rw [Rec.set_self] at hw
    rw [FRead.apply_covers ha hv hw, Rec.set_twice]
    rfl

/-- Arms that give one value, except for some codes. -/
def ArmsCover {ds : List Decl} (arms : List (Arm ds)) (bad : List Int) : Prop :=
  ∀ a ∈ arms, a.code ∉ bad → ∀ (p q : CodePair) (r r1 r2 : Rec ds), a.act.apply r p = .ok r1 →
    a.act.apply r1 q = .ok r2 → a.act.apply r q = .ok r2

theorem armsCover_of {ds : List Decl} {arms : List (Arm ds)} {bad : List Int}
    (h : arms.all (fun a => a.act.single || bad.contains a.code) = true) : ArmsCover arms bad := by
  intro a ha hb p q r r1 r2 h1 h2
  have := List.all_eq_true.mp h a ha
  rw [Bool.or_eq_true] at this
  rcases this with h3 | h3
  · exact Act.apply_covers h3 h1 h2
  · exact absurd (by simpa using h3) hb

theorem fieldAct_covers {ds : List Decl} {arms : List (Arm ds)} {bad : List Int}
    (hb : ArmsCover arms bad) {p q : CodePair} (hpq : q.code = p.code) (h : p.code ∉ bad) :
    Covers (fieldAct arms) p q := by
  intro e e1 e2 he1 he2
  unfold fieldAct applyPair at he1 he2 ⊢
  rw [hpq] at he2 ⊢
  cases ha : findArm arms p.code with
  | none =>
    rw [ha] at he1 he2
    obtain ⟨r1, h3, rfl⟩ := except_map_ok he1
    obtain ⟨r2, h4, rfl⟩ := except_map_ok he2
    cases h3
    cases h4
    rfl
  | some a =>
    rw [ha] at he1 he2
    obtain ⟨r1, h3, rfl⟩ := except_map_ok he1
    obtain ⟨r2, h4, rfl⟩ := except_map_ok he2
    obtain ⟨ma, ca⟩ := findArm_mem ha
    dsimp only at h3 h4 ⊢
    rw [hb a ma (by rw [ca]; exact h) _ _ _ _ _ h3 h4]
    rfl

theorem EName.covers_ok (k : EName) (m : Mode) :
    ArmsCover (freeArms k.fixed (k.kind.arms m)) k.lists := by
  have key : EName.all.all (fun k => Mode.all.all fun m =>
      (freeArms k.fixed (k.kind.arms m)).all fun a => a.act.single || k.lists.contains a.code) =
        true := by
    decide +kernel
  obtain ⟨m', hm, e⟩ := k.free_modes m
  rw [e]
  have := List.all_eq_true.mp key k (by cases k <;> decide)
  exact armsCover_of (List.all_eq_true.mp this m' hm)

theorem EName.act_covers {k : EName} {p q : CodePair} (hp : p.code ∉ k.fixed)
    (hpq : q.code = p.code) (hl : p.code ∉ k.lists) : Covers k.act p q := by
  rintro ⟨m, e⟩ ⟨m1, e1⟩ ⟨m2, e2⟩ he1 he2
  have hq : q.code ∉ k.fixed := by rw [hpq]; exact hp
  unfold EName.act at he1 he2 ⊢
  obtain ⟨f1, h3, h4⟩ := except_map_ok he1
  obtain ⟨f2, h5, h6⟩ := except_map_ok he2
  obtain ⟨rfl, rfl⟩ := Prod.mk.inj h4
  obtain ⟨rfl, rfl⟩ := Prod.mk.inj h6
  dsimp only at h3 h5 ⊢
  rw [k.next_free hp] at h5 ⊢
  rw [k.next_free hq]
  rw [← fieldAct_free k.fixed _ hp] at h3
  rw [← fieldAct_free k.fixed _ hq] at h5 ⊢
  rw [fieldAct_covers (k.covers_ok m) hpq hl _ _ _ h3 h5]
  simp only [Except.map]

theorem OName.covers_ok {k : OName} (hk : k ∉ OName.nested) (m : OMode) :
    ArmsCover (freeArms k.fixed (k.kind.arms m)) k.lists := by
  have key : OName.all.all (fun k => decide (k ∈ OName.nested) || [false, true].all fun a =>
      (freeArms k.fixed (k.kind.arms ⟨a, []⟩)).all fun a => a.act.single ||
        k.lists.contains a.code) = true := by
    decide +kernel
  obtain ⟨a, e⟩ := OName.free_modes hk m
  rw [e]
  have := List.all_eq_true.mp key k (by cases k <;> decide)
  simp only [hk, decide_false, Bool.false_or] at this
  exact armsCover_of (List.all_eq_true.mp this a (by cases a <;> decide))

theorem OName.act_covers {k : OName} (hk : k ∉ OName.nested) {p q : CodePair}
    (hp : p.code ∉ k.fixed) (hpq : q.code = p.code) (hl : p.code ∉ k.lists) : Covers k.act p q := by
  rintro ⟨m, e, w⟩ ⟨m1, e1, w1⟩ ⟨m2, e2, w2⟩ he1 he2
  have hq : q.code ∉ k.fixed := by rw [hpq]; exact hp
  unfold OName.act at he1 he2 ⊢
  obtain ⟨f1, h3, h4⟩ := except_map_ok he1
  obtain ⟨f2, h5, h6⟩ := except_map_ok he2
  cases h4
  cases h6
  dsimp only at h3 h5 ⊢
  rw [OName.next_free hk hp] at h5 ⊢
  rw [← fieldAct_free k.fixed _ hp] at h3
  rw [← fieldAct_free k.fixed _ hq] at h5 ⊢
  rw [fieldAct_covers (OName.covers_ok hk m) hpq hl _ _ _ h3 h5]
  simp only [Except.map]

/-- The field that an arm sets anew. -/
def Act.resets {ds : List Decl} : Act ds → Option Nat
  | .on i (.set _) => some i
  | _ => none

theorem resets_covers {ds : List Decl} {a b : Act ds} {i : Nat} (ha : a.resets = some i)
    (hb : b.resets = some i) {p q : CodePair} {r r1 r2 : Rec ds} (h1 : a.apply r p = .ok r1)
    (h2 : b.apply r1 q = .ok r2) : b.apply r q = .ok r2 := by
  unfold Act.resets at ha hb
  split at ha
  · cases ha
    split at hb
    · cases hb
      unfold Act.apply at h1 h2 ⊢
      dsimp only at h1 h2 ⊢
      obtain ⟨v, hv, rfl⟩ := except_map_ok h1
      obtain ⟨w, hw, rfl⟩ := except_map_ok h2
      unfold FRead.apply at hw ⊢
      dsimp only at hw ⊢
      rw [hw, Rec.set_twice]
      rfl
    · cases hb
  · cases ha

theorem both_twice {ds : List Decl} {r : Rec ds} {i j : Nat} (h : j ≠ i) {v v' : (tyAt ds i).den}
    {w w' : (tyAt ds j).den} : (r.both v w).both v' w' = r.both v' w' := by
  unfold Rec.both
  rw [Rec.set_comm (r.set i v) h, Rec.set_twice, Rec.set_twice]

theorem TName.covers_ok (t : TName) : ArmsCover t.kind.arms t.lists := by
  have key : TName.all.all (fun t => t.kind.arms.all fun a => a.act.single ||
      t.lists.contains a.code || (decide (t = .layer) && decide (a.code = 62))) = true := by
    decide +kernel
  have := List.all_eq_true.mp key t (by cases t <;> decide)
  intro a ha hb p q r r1 r2 h1 h2
  have h := List.all_eq_true.mp this a ha
  rw [Bool.or_eq_true, Bool.or_eq_true] at h
  rcases h with (h | h) | h
  · exact Act.apply_covers h h1 h2
  · exact absurd (by simpa using h) hb
  · rw [Bool.and_eq_true] at h
    have h3 : t = .layer := by simpa using h.1
    have h4 : a.code = 62 := by simpa using h.2
    subst h3
    have h5 : ∀ a ∈ Tables.layerArms, a.code = 62 → a.act = Tables.readLayerColor := by
      intro a ha h
      simp only [Tables.layerArms, List.mem_cons, List.not_mem_nil, or_false] at ha
      rcases ha with rfl | rfl | rfl | rfl | rfl | rfl | rfl | rfl | rfl
      all_goals first
        | rfl
        | exact absurd h (by decide)
    rw [h5 a ha h4] at h1 h2 ⊢
    obtain ⟨on, c, hc⟩ := layerColor_ok h1
    obtain ⟨on', c', hc'⟩ := layerColor_ok h2
    cases (hc r).symm.trans h1
    cases (hc' _).symm.trans h2
    refine (hc' r).trans ?_
    exact congrArg Except.ok (both_twice (ds := Tables.layerDecls) (i := 9) (j := 3) (by decide)).symm

/-- A pair with another code takes its place or may be read before it. -/
theorem TName.either (t : TName) {p q : CodePair} (hpq : q.code ≠ p.code) :
    Covers (fieldAct t.kind.arms) p q ∨ Swaps (fieldAct t.kind.arms) p q := by
  have key : TName.all.all (fun t => t.clashes.all fun x =>
      match findArm t.kind.arms x.1, findArm t.kind.arms x.2 with
      | some a, some b => a.act.resets.isSome && decide (a.act.resets = b.act.resets)
      | _, _ => false) = true := by
    decide +kernel
  have key' : ∀ c c', (c, c') ∈ t.clashes → ∃ a b i, findArm t.kind.arms c = some a ∧
      findArm t.kind.arms c' = some b ∧ a.act.resets = some i ∧ b.act.resets = some i := by
    intro c c' h
    have := List.all_eq_true.mp (List.all_eq_true.mp key t (by cases t <;> decide)) _ h
    dsimp only at this
    cases ha : findArm t.kind.arms c with
    | none => simp [ha] at this
    | some a =>
      cases hb : findArm t.kind.arms c' with
      | none => simp [ha, hb] at this
      | some b =>
        simp only [ha, hb, Bool.and_eq_true, decide_eq_true_eq, Option.isSome_iff_exists] at this
        obtain ⟨⟨i, h⟩, h'⟩ := this
        exact ⟨a, b, i, rfl, rfl, h, h'.symm.trans h⟩
  have cov : ∀ {a b : Arm t.kind.decls} {i : Nat}, findArm t.kind.arms p.code = some a →
      findArm t.kind.arms q.code = some b → a.act.resets = some i → b.act.resets = some i →
      Covers (fieldAct t.kind.arms) p q := by
    intro a b i ha hb hi hi' e e1 e2 he1 he2
    unfold fieldAct applyPair at he1 he2 ⊢
    rw [ha] at he1
    rw [hb] at he2 ⊢
    obtain ⟨r1, h3, rfl⟩ := except_map_ok he1
    obtain ⟨r2, h4, rfl⟩ := except_map_ok he2
    dsimp only at h3 h4 ⊢
    rw [resets_covers hi hi' h3 h4]
    rfl
  by_cases h1 : (p.code, q.code) ∈ t.clashes
  · obtain ⟨a, b, i, ha, hb, hi, hi'⟩ := key' _ _ h1
    exact .inl (cov ha hb hi hi')
  by_cases h2 : (q.code, p.code) ∈ t.clashes
  · obtain ⟨a, b, i, ha, hb, hi, hi'⟩ := key' _ _ h2
    exact .inl (cov hb ha hi' hi)
  exact .inr (fieldAct_swaps t.clashes_ok hpq.symm h1 h2)

theorem block_covers : ArmsCover Blocks.arms [] := armsCover_of (by decide +kernel)

theorem classApply_covers (v : Version) {p q : CodePair} (hpq : q.code = p.code) :
    Covers (Class.apply v) p q := by
  intro c c1 c2 h1 h2
  unfold Class.apply at h1 h2 ⊢
  rw [hpq] at h2 ⊢
  repeat' split at h1
  all_goals first
    | (cases h1; exact h2)
    | skip
  all_goals
    simp only [*, if_true, if_false] at h2 ⊢
    obtain ⟨x, hx, rfl⟩ := except_map_ok h1
    obtain ⟨y, hy, rfl⟩ := except_map_ok h2
    rw [hy]
    rfl

/-! ### The header -/

theorem header_single {x : Str} {v : HVar Header.decls} (h : findVar Header.vars x = some v) :
    ∀ a ∈ v.arms, a.act.single = true := by
  have key : Header.vars.all (fun v => v.arms.all fun a => a.act.single) = true := by
    decide +kernel
  unfold findVar at h
  exact fun a ha => List.all_eq_true.mp (List.all_eq_true.mp key v (List.mem_of_find?_eq_some h)) a ha

theorem header_apart {x : Str} {v : HVar Header.decls} (h : findVar Header.vars x = some v) :
    ∀ a ∈ v.arms, ∀ b ∈ v.arms, a.code ≠ b.code → a.act.apart b.act = true ∨
      ∃ i, a.act.resets = some i ∧ b.act.resets = some i := by
  have key : Header.vars.all (fun v => v.arms.all fun a => v.arms.all fun b =>
      decide (a.code = b.code) || a.act.apart b.act || (a.act.resets.isSome &&
        decide (a.act.resets = b.act.resets))) = true := by
    decide +kernel
  unfold findVar at h
  intro a ha b hb hab
  have := List.all_eq_true.mp (List.all_eq_true.mp (List.all_eq_true.mp key v
    (List.mem_of_find?_eq_some h)) a ha) b hb
  simp only [hab, decide_false, Bool.false_or, Bool.or_eq_true, Bool.and_eq_true,
    decide_eq_true_eq, Option.isSome_iff_exists] at this
  rcases this with h | ⟨⟨i, h⟩, h'⟩
  · exact .inl h
  · exact .inr ⟨i, h, h'.symm.trans h⟩

theorem valueAct_covers {n : Str} {p q : CodePair} (hpq : q.code = p.code) :
    Covers valueAct (n, p) (n, q) := by
  intro h h1 h2 e1 e2
  unfold valueAct setHeaderValue at e1 e2 ⊢
  dsimp only at e1 e2 ⊢
  cases hv : findVar Header.vars n with
  | none =>
    rw [hv] at e1 e2
    cases e1
    exact e2
  | some v =>
    rw [hv] at e1 e2
    dsimp only at e1 e2 ⊢
    rw [hpq] at e2 ⊢
    cases ha : findArm v.arms p.code with
    | none => rw [ha] at e1; cases e1
    | some a =>
      rw [ha] at e1 e2
      dsimp only at e1 e2 ⊢
      exact Act.apply_covers (header_single hv a (findArm_mem ha).1) e1 e2

theorem valueAct_other {n : Str} {p q : CodePair} (hpq : q.code ≠ p.code) :
    Covers valueAct (n, p) (n, q) ∨ Swaps valueAct (n, p) (n, q) := by
  unfold Covers Swaps valueAct setHeaderValue
  dsimp only
  cases hv : findVar Header.vars n with
  | none => exact .inl fun h h1 h2 e1 e2 => by cases e1; exact e2
  | some v =>
    cases ha : findArm v.arms p.code with
    | none => exact .inl fun h h1 h2 e1 e2 => by simp [ha] at e1
    | some a =>
      cases hb : findArm v.arms q.code with
      | none => exact .inl fun h h1 h2 e1 e2 => by simp [hb] at e2
      | some b =>
        obtain ⟨ma, ca⟩ := findArm_mem ha
        obtain ⟨mb, cb⟩ := findArm_mem hb
        rcases header_apart hv a ma b mb (by rw [ca, cb]; exact hpq.symm) with h | ⟨i, h, h'⟩
        · refine .inr fun _ _ _ e1 e2 => ?_
          simp only [ha, hb] at e1 e2 ⊢
          exact Act.apply_swap h e1 e2
        · refine .inl fun _ _ _ e1 e2 => ?_
          simp only [ha, hb] at e1 e2 ⊢
          exact resets_covers h h' e1 e2

theorem varAct_covers {v w : Variable} (hn : w.name = v.name)
    (hc : ∀ p ∈ v.values, ∃ q ∈ w.values, q.code = p.code) : Covers varAct v w := by
  intro h h1 h2 e1 e2
  unfold varAct at e1 e2 ⊢
  rw [hn] at e2 ⊢
  generalize v.name = n at e1 e2 ⊢
  generalize v.values = ps at e1 hc
  generalize w.values = qs at e2 hc ⊢
  have e3 : foldAct valueAct h ((ps.map fun p => (n, p)) ++ qs.map fun p => (n, p)) = .ok h2 := by
    rw [foldAct_append, e1]
    exact e2
  clear e1 e2
  rw [← List.map_append] at e3
  induction ps with
  | nil => exact e3
  | cons p ps ih =>
    refine ih (fun p hp => hc p (by simp [hp])) ?_
    obtain ⟨q, hq, hqp⟩ := hc p (by simp)
    obtain ⟨l1, l2, rfl⟩ := List.append_of_mem hq
    rw [List.cons_append, ← List.append_assoc, List.map_cons, List.map_append, List.map_cons] at e3
    rw [← List.append_assoc, List.map_append, List.map_cons]
    refine foldAct_drop (valueAct_covers hqp) (fun r hr => ?_) e3
    obtain ⟨r, _, rfl⟩ := List.mem_map.mp hr
    by_cases hr : r.code = p.code
    · exact .inl (valueAct_covers hr)
    · exact valueAct_other hr

/-- Other variables that have the same effect. -/
theorem header_replace {vs ws : List Variable} (hvs : ∀ v ∈ vs, v.Proper) (hws : ∀ v ∈ ws, v.Proper)
    {q : CodePair} (hq : VarEnd q.code) {u z : Stream} {h h1 h2 : Header}
    (f1 : foldAct varAct h1 vs = .ok h2) (f2 : foldAct varAct h1 ws = .ok h2)
    (hle : (vs.flatMap Variable.pairs).length + ws.length ≤
      (ws.flatMap Variable.pairs).length + vs.length)
    (hlen : (vs.flatMap Variable.pairs).length ≤ (ws.flatMap Variable.pairs).length)
    (hfi : Fine false (u ++ (toStream (vs.flatMap Variable.pairs) ++ some (.ok q) :: z)))
    (hh : Steps oneVariable h (u ++ (toStream (vs.flatMap Variable.pairs) ++ some (.ok q) :: z)) h1
      (toStream (vs.flatMap Variable.pairs) ++ some (.ok q) :: z)) :
    Same (Header.read h) (u ++ (toStream (vs.flatMap Variable.pairs) ++ some (.ok q) :: z))
      (u ++ (toStream (ws.flatMap Variable.pairs) ++ some (.ok q) :: z)) := by
  have l1 := variables_loop hvs hq (z := z) f1
  have l2 := variables_loop hws hq (z := z) f2
  have hge : ∀ vs : List Variable, vs.length ≤ (vs.flatMap Variable.pairs).length := by
    intro vs
    induction vs with
    | nil => simp
    | cons v vs ih =>
      simp only [List.flatMap_cons, List.length_append, List.length_cons, Variable.pairs]
      omega
  have g1 := hge vs
  have g2 := hge ws
  obtain ⟨p, y, hp, hy⟩ := variables_head hvs hq z
  obtain ⟨p', y', hp', hy'⟩ := variables_head hws hq z
  have hyv : y.length = (vs.flatMap Variable.pairs).length + z.length := by
    have := congrArg List.length hy
    simp only [List.length_append, List.length_cons, toStream_length] at this
    omega
  have hyw : y'.length = (ws.flatMap Variable.pairs).length + z.length := by
    have := congrArg List.length hy'
    simp only [List.length_append, List.length_cons, toStream_length] at this
    omega
  rw [hy] at hh hfi l1
  rw [hy'] at l2
  rw [hy, hy']
  obtain ⟨_, n, hn, k1, k2⟩ := Steps.loop oneVariable_passes (f := headerLoop Header.vars)
    oneVariable_loop (q := p) (q' := p') (z' := y') hp hp' (by omega) hh hfi
  intro hc
  have e : Header.read h (u ++ some (.ok p') :: y') = Header.read h (u ++ some (.ok p) :: y) := by
    unfold Header.read at hc ⊢
    rw [Rd.run_withFuel] at hc
    rw [Rd.run_withFuel, Rd.run_withFuel]
    have e1 : (u ++ some (.ok p) :: y).length + 1 =
        (u.length + y.length + 2 - n - vs.length) + vs.length + n := by
      simp only [List.length_append, List.length_cons]; omega
    have e2 : (u ++ some (.ok p') :: y').length + 1 =
        (u.length + y'.length + 2 - n - ws.length) + ws.length + n := by
      simp only [List.length_append, List.length_cons]; omega
    rw [e1, k1, l1] at hc
    rw [e1, e2, k1, k2, l1, l2]
    exact (headerLoop_mono h2).le (by omega) _ hc
  rw [e]
  exact .refl

end Dxf
