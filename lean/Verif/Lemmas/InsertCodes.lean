import Verif.Lemmas.InsertBlocks

/-! Unknown group codes in table entries and blocks. -/

namespace Dxf

/-! ### Blocks -/

theorem blockFields_code {p : CodePair} (h : UnknownCode Blocks.arms p.code)
    {e e' : Entry Blocks.decls} {u : Stream} {q : CodePair} {z : Stream} (hq : Outside q.code)
    (hfi : Fine false (u ++ some (.ok q) :: z))
    (hh : Steps (oneField Blocks.arms) e (u ++ some (.ok q) :: z) e' (some (.ok q) :: z))
    (hc : Calm (blockFields e (u ++ some (.ok q) :: z)).1) :
    blockFields e (u ++ some (.ok p) :: some (.ok q) :: z) =
      blockFields e (u ++ some (.ok q) :: z) := by
  have h' := h
  obtain ⟨h0, _, h9, h1000, _⟩ := h'
  exact item_skip false (fun p st => entryApply_locC (fun _ h => h) _ p st) h0
    (by unfold Outside; omega) (entryApply_unknown h p rfl e') hq hfi hh hc

theorem blockRead_code {p : CodePair} (h : UnknownCode Blocks.arms p.code)
    {e : Entry Blocks.decls} {u : Stream} {q : CodePair} {z : Stream} (hq : Outside q.code)
    (hfi : Fine false (u ++ some (.ok q) :: z))
    (hh : Steps (oneField Blocks.arms) Block.dflt.entry (u ++ some (.ok q) :: z) e
      (some (.ok q) :: z)) :
    Same Block.read (u ++ some (.ok q) :: z) (u ++ some (.ok p) :: some (.ok q) :: z) := by
  intro hc
  unfold Block.read at hc ⊢
  rw [Rd.run_withFuel] at hc ⊢
  rw [Rd.run_withFuel]
  have e1 : ∀ k, Calm (Block.readFrom (k + 1) Block.dflt (u ++ some (.ok q) :: z)).1 →
      Block.readFrom (k + 1) Block.dflt (u ++ some (.ok p) :: some (.ok q) :: z) =
        Block.readFrom (k + 1) Block.dflt (u ++ some (.ok q) :: z) := by
    intro k hk
    unfold Block.readFrom at hk ⊢
    rw [Rd.run_bind] at hk ⊢
    rw [Rd.run_bind]
    have := blockFields_code h hq hfi hh
    unfold blockFields at this
    rw [this]
    intro he
    apply hk
    rcases hr : Rd.withFuel (fun f => itemLoop false (Entry.apply Blocks.arms) f Block.dflt.entry)
      (u ++ some (.ok q) :: z) with ⟨x, t⟩
    rw [hr] at he
    dsimp only at he
    subst he
    rfl
  have h2 := e1 _ hc
  have h3 := (blockReadFrom_mono Block.dflt).le (k := (u ++ some (.ok q) :: z).length + 1)
    (k' := (u ++ some (.ok p) :: some (.ok q) :: z).length + 1)
    (by simp only [List.length_append, List.length_cons]; omega)
    (u ++ some (.ok p) :: some (.ok q) :: z) (by rw [h2]; exact hc)
  rw [h3, h2]
  exact .refl

/-! ### Table entries -/

theorem oneEntry_locC (K : TableKind) (xs : List (TableItem K)) : LocC (· = 0) (oneEntry K xs) := by
  unfold oneEntry
  exact .nextDrop (by decide) fun p => .ite (fun _ => .ite (fun _ => .bind
    (item_locC false (fun p st => entryApply_locC zero_stops _ p st) _) fun _ => .pure)
    fun _ => .fail) fun _ => .pure

theorem oneEntry_passes (K : TableKind) : Passes (· = 0) (oneEntry K) := by
  refine ⟨fun st s st' t hs h => ?_, fun st st' u v q z q' z' hfi hq hq' hlen h =>
    (oneEntry_locC K st).pass hfi hq hq' hlen h⟩
  obtain ⟨p, y, h1, h2⟩ := Rd.bind_inv h
  obtain ⟨c, hc, rfl, _⟩ := Rd.next_ok h1
  have hy : y <:+ toStream c ++ some (.ok p) :: y :=
    (List.suffix_cons _ _).trans (List.suffix_append _ _)
  have h3 : t <:+ y := by
    by_cases hp : p.code = 0
    · rw [if_pos hp] at h2
      by_cases hv : p.value = .str K.typeString
      · rw [if_pos hv] at h2
        obtain ⟨it, t2, h3, h4⟩ := Rd.bind_inv h2
        obtain ⟨_, rfl⟩ := Prod.mk.inj h4
        have := (item_loc false (fun p st => entryApply_loc K.arms p st)
          (Entry.dflt K.decls)).suffix y (hs.suffix hy)
        rwa [h3] at this
      · rw [if_neg hv] at h2; cases h2
    · rw [if_neg hp] at h2
      obtain ⟨_, rfl⟩ := Prod.mk.inj h2
      exact List.suffix_refl _
  refine ⟨h3.trans hy, ?_⟩
  have := h3.length_le
  simp only [List.length_append, List.length_cons]
  omega

/-- The loop over the entries, with the entries before it. -/
def entriesFrom (K : TableKind) (k : Nat) (xs : List (TableItem K)) : Rd (List (TableItem K)) := do
  let rest ← K.read k
  return xs ++ rest

theorem read_entry (K : TableKind) (k : Nat) (c : List CodePair) (hc : ∀ q ∈ c, q.code = 999)
    (p : CodePair) (hp : p.code = 0) (hv : p.value = .str K.typeString) (y : Stream) :
    K.read (k + 1) (toStream c ++ some (.ok p) :: y) = (do
      let it ← Rd.withFuel fun f => itemLoop false (Entry.apply K.arms) f (Entry.dflt K.decls)
      let rest ← TableKind.read K k
      return it :: rest) y := by
  conv => lhs; unfold TableKind.read
  refine (Rd.bind_ok (next_comments c hc p (by omega) _)).trans ?_
  rw [if_pos hp]
  refine (Rd.bind_ok (m := Rd.lift p.assertString) (a := K.typeString) (s := _) (s' := _)
    (by unfold CodePair.assertString; rw [hv]; rfl)).trans ?_
  rw [if_neg (by simp)]

theorem oneEntry_loop (K : TableKind) (k : Nat) (xs : List (TableItem K)) (s : Stream)
    (xs1 : List (TableItem K)) (t : Stream) (h : oneEntry K xs s = (.ok xs1, t)) :
    entriesFrom K (k + 1) xs s = entriesFrom K k xs1 t := by
  obtain ⟨p, y, h1, h2⟩ := Rd.bind_inv h
  obtain ⟨c, hc, rfl, h9⟩ := Rd.next_ok h1
  unfold entriesFrom
  by_cases hp : p.code = 0
  · rw [if_pos hp] at h2
    by_cases hv : p.value = .str K.typeString
    · rw [if_pos hv] at h2
      obtain ⟨it, t2, h3, h4⟩ := Rd.bind_inv h2
      obtain ⟨h5, rfl⟩ := Prod.mk.inj h4
      cases h5
      rw [Rd.run_bind, read_entry K k c hc p hp hv y, Rd.bind_ok h3, Rd.run_bind]
      conv => rhs; rw [Rd.run_bind]
      rcases TableKind.read K k t2 with ⟨e | r, t3⟩
      · rfl
      · change (Except.ok (xs ++ it :: r), t3) = (Except.ok ((xs ++ [it]) ++ r), t3)
        rw [List.append_assoc]
        rfl
    · rw [if_neg hv] at h2; cases h2
  · rw [if_neg hp] at h2
    obtain ⟨h5, rfl⟩ := Prod.mk.inj h2
    cases h5
    rw [Rd.run_bind, Rd.run_bind]
    have : K.read (k + 1) (toStream c ++ some (.ok p) :: y) = K.read k y := by
      conv => lhs; unfold TableKind.read
      refine (Rd.bind_ok (next_comments c hc p h9 _)).trans ?_
      rw [if_neg hp]
    rw [this]

theorem entriesFrom_nil (K : TableKind) : (Rd.withFuel fun k => entriesFrom K k []) =
    Rd.withFuel K.read := by
  funext s
  rw [Rd.run_withFuel, Rd.run_withFuel]
  unfold entriesFrom
  rw [Rd.run_bind]
  rcases TableKind.read K (s.length + 1) s with ⟨e | r, t3⟩ <;> rfl

/-- An unknown pair inside an entry. -/
theorem entries_code (K : TableKind) {p : CodePair} (h : UnknownCode K.arms p.code)
    {xs : List (TableItem K)} {e : TableItem K} {u w : Stream} {op q : CodePair} {z : Stream}
    (hop : op.code = 0 ∧ op.value = .str K.typeString) (hq : Outside q.code)
    (hfi : Fine false (u ++ some (.ok op) :: (w ++ some (.ok q) :: z)))
    (hh : Steps (oneEntry K) [] (u ++ some (.ok op) :: (w ++ some (.ok q) :: z)) xs
      (some (.ok op) :: (w ++ some (.ok q) :: z)))
    (hh' : Steps (oneField K.arms) (Entry.dflt K.decls) (w ++ some (.ok q) :: z) e
      (some (.ok q) :: z)) :
    Same (Rd.withFuel K.read) (u ++ some (.ok op) :: (w ++ some (.ok q) :: z))
      (u ++ some (.ok op) :: (w ++ some (.ok p) :: some (.ok q) :: z)) := by
  rw [← entriesFrom_nil]
  have hfw : Fine false (w ++ some (.ok q) :: z) :=
    hfi.suffix ((List.suffix_cons _ _).trans (List.suffix_append _ _))
  have h' := h
  obtain ⟨h0, _, h9, h1000, _⟩ := h'
  refine Steps.same (oneEntry_passes K) (f := entriesFrom K) (oneEntry_loop K) (q := op) (q' := op)
    hop.1 hop.1 (by simp) hh hfi fun k hc => ?_
  have hs := item_skip false (fun p st => entryApply_locC (fun _ h => h) K.arms p st) h0
    (by unfold Outside; omega) (entryApply_unknown h p rfl e) hq hfw hh'
  have o : ∀ k y, K.read (k + 1) (some (.ok op) :: y) = _ := fun k y =>
    read_entry K k [] (by simp) op hop.1 hop.2 y
  have e1 : (w ++ some (.ok p) :: some (.ok q) :: z).length -
      (w ++ some (Except.ok q) :: z : Stream).length = 1 := by
    simp only [List.length_append, List.length_cons]; omega
  rw [e1]
  have same : Same (K.read (k + 1)) (some (.ok op) :: (w ++ some (.ok q) :: z))
      (some (.ok op) :: (w ++ some (.ok p) :: some (.ok q) :: z)) := by
    intro hc
    rw [o] at hc ⊢
    rw [o]
    refine Same.bind ?_ hc
    intro hc
    rw [hs hc]
    exact .refl
  have same' : Same (entriesFrom K (k + 1) xs) (some (.ok op) :: (w ++ some (.ok q) :: z))
      (some (.ok op) :: (w ++ some (.ok p) :: some (.ok q) :: z)) := same.bind
  refine (same' hc).trans ?_
  have hb : Below (entriesFrom K (k + 1) xs) (entriesFrom K (k + 1 + 1) xs) :=
    .bind ((tableRead_mono K).le (by omega)) fun _ => .rfl
  rw [hb _ ((same' hc).calm hc)]
  exact .refl

namespace Drawing

variable {Img : Type}

/-- A table with another content. -/
theorem readTable_same (d : Drawing Img) {nm : CodePair} {x : Str} {t : TName}
    (hnm : nm.code = 2 ∧ nm.value = .str x) (hx : tableOf x = some t) {y y' : Stream}
    (h : Same (Rd.withFuel t.kind.read) y y') :
    Same d.readTable (some (.ok nm) :: y) (some (.ok nm) :: y') := by
  unfold readTable
  refine Same.after (Rd.next_cons (by omega) y) (Rd.next_cons (by omega) y') ?_
  rw [if_neg (by simp [hnm.1])]
  refine Same.after (m := Rd.lift nm.assertString) (a := x) (t := y) (t' := y')
    (by unfold CodePair.assertString; rw [hnm.2]; rfl)
    (by unfold CodePair.assertString; rw [hnm.2]; rfl) ?_
  simp only [hx]
  exact h.bind

/-- A place inside a table. -/
theorem inTable_same {u : Stream} {op nm : CodePair} {x : Str} {t : TName}
    (hop : op.code = 0 ∧ op.value = .str str!"TABLE") (hnm : nm.code = 2 ∧ nm.value = .str x)
    (hx : tableOf x = some t) {y y' : Stream} (hl : y.length ≤ y'.length) {d d' : Drawing Img}
    (hfi : Fine false (u ++ some (.ok op) :: some (.ok nm) :: y))
    (hh : Steps wholeTable d (u ++ some (.ok op) :: some (.ok nm) :: y) d'
      (some (.ok op) :: some (.ok nm) :: y))
    (h : Same (Rd.withFuel t.kind.read) y y') :
    Same (Rd.withFuel fun k => readItems str!"TABLE" readTable k d)
      (u ++ some (.ok op) :: some (.ok nm) :: y) (u ++ some (.ok op) :: some (.ok nm) :: y') :=
  Steps.same wholeTable_passes (f := readItems str!"TABLE" readTable)
    (wholeItem_loop (Img := Img) str!"TABLE" (by decide) readTable) (q := op) (q' := op) trivial
    trivial (by simpa using hl) hh hfi fun k hc =>
      item_sim str!"TABLE" (by decide) readTable d' op hop (readTable_same d' hnm hx h) k _ hc

end Drawing

/-! ### Objects -/

theorem OWork.setValue_locC {C : Int → Prop} (w : OWork) (x : DataTableValue) :
    LocC C (w.setValue x) := .bind .lift fun _ => .pure

theorem OName.odd_locC {C : Int → Prop} {k : OName} (h : k ∉ OName.nested) {m : OMode} {p : CodePair}
    {w : OWork} {act : Rd OWork} (ho : k.odd m p w = some act) : LocC C act := by
  have hd : ∀ {act}, w.dictionary p = some act → LocC C act := by
    intro act ho
    unfold OWork.dictionary at ho
    split_ifs at ho <;> cases ho <;> exact .bind .lift fun _ => .pure
  unfold OName.odd at ho
  split at ho
  · exact hd ho
  · exact hd ho
  · unfold OWork.dataTable at ho
    dsimp only at ho
    split at ho <;> try (cases ho; first
      | exact .bind .lift fun _ => .pure
      | exact .bind .lift fun _ => OWork.setValue_locC _ _
      | exact .bind .lift fun _ => .bind (OWork.setValue_locC _ _) fun _ => .pure)
    split_ifs at ho
    cases ho
    exact .bind .lift fun _ => OWork.setValue_locC _ _
  · exact absurd (by decide) h
  · unfold OWork.spatial at ho
    split_ifs at ho <;> cases ho <;> first
      | exact .lift
      | exact .bind .lift fun _ => .pure
  · unfold OWork.sunStudy at ho
    split_ifs at ho
    · cases ho
      cases w.day with
      | none => exact .bind .lift fun _ => .pure
      | some d => exact .bind .lift fun _ => .bind .lift fun _ => .bind .lift fun _ => .pure
    · cases ho
      exact .bind .lift fun _ => .pure
  · exact absurd (by decide) h
  · exact absurd (by decide) h
  · cases ho

theorem OName.step_outside {k : OName} (h : k ∉ OName.nested) (p : CodePair) (st : OState k) :
    LocC Outside (k.step p st) := by
  unfold OName.step
  split
  · exact .bind (OName.odd_locC h (by assumption)) fun _ => .pure
  · exact .bind (entryApply_locC (fun _ h => h) _ _ _) fun _ => .pure

theorem OName.step_unknown {k : OName} {c : Int} (h : k.Unknown c) (p : CodePair) (hp : p.code = c)
    (st : OState k) : k.step p st = pure st := by
  obtain ⟨_, h2, _, h4, h5, h6⟩ := h
  obtain ⟨h7, h8⟩ := h6 st.1
  unfold OName.step
  rw [(h8 p hp).2]
  unfold Entry.apply
  dsimp only
  rw [if_neg (by omega), if_neg (by omega)]
  unfold applyPair
  rw [hp, h7, (h8 p hp).1]
  rfl

theorem nextObject_code {k : OName} {c : Int} (h : k.Unknown c) (p : CodePair) (hp : p.code = c)
    {op : CodePair} {x : Str} (hop : op.code = 0 ∧ op.value = .str x) (hx : OName.ofType x = some k)
    (he : x ≠ str!"ENDSEC" ∧ x ≠ str!"ENDBLK") {st' : OState k} {u : Stream}
    {q : CodePair} {z : Stream} (hq : Outside q.code)
    (hfi : Fine false (u ++ some (.ok q) :: z))
    (hh : Steps (oneObjectPair k) (OMode.start, Entry.dflt k.decls, {}) (u ++ some (.ok q) :: z) st'
      (some (.ok q) :: z)) (hc : Calm (nextObject (some (.ok op) :: (u ++ some (.ok q) :: z))).1) :
    nextObject (some (.ok op) :: (u ++ some (.ok p) :: some (.ok q) :: z)) =
      nextObject (some (.ok op) :: (u ++ some (.ok q) :: z)) := by
  have hc' : Calm (Rd.withFuel readObject (some (.ok op) :: (u ++ some (.ok q) :: z))).1 := by
    unfold nextObject at hc
    rcases hr : Rd.withFuel readObject (some (.ok op) :: (u ++ some (.ok q) :: z)) with ⟨e | a, t⟩
    · rw [hr] at hc
      cases e <;> first | exact absurd rfl hc | simp [Calm]
    · exact Calm.ok
  have h' := h
  obtain ⟨h0, _, h9, h1000, h5, _⟩ := h'
  have hs := item_skip k.kind.eof (fun p st => k.step_outside h5 p st) (p := p) (by omega)
    (by unfold Outside; omega) (OName.step_unknown h p hp st') hq hfi hh
  have : Rd.withFuel readObject (some (.ok op) :: (u ++ some (.ok p) :: some (.ok q) :: z)) =
      Rd.withFuel readObject (some (.ok op) :: (u ++ some (.ok q) :: z)) := by
    rw [Rd.run_withFuel] at hc' ⊢
    rw [Rd.run_withFuel]
    have o1 := fun n y => readObject_open n [] (by simp) op hop.1 x
      (by unfold CodePair.assertString; rw [hop.2]) (by simp [he]) y
    simp only [toStream_nil, List.nil_append] at o1
    rw [o1] at hc' ⊢
    rw [o1]
    unfold objectBody at hc' ⊢
    simp only [hx] at hc' ⊢
    rw [Rd.run_bind] at hc' ⊢
    rw [Rd.run_bind, hs]
    intro he
    apply hc'
    rcases hr : Rd.withFuel (fun n => itemLoop k.kind.eof k.step n
      (OMode.start, Entry.dflt k.decls, {})) (u ++ some (.ok q) :: z) with ⟨x, t⟩
    rw [hr] at he
    dsimp only at he
    subst he
    rfl
  unfold nextObject
  rw [this]

/-! ### Classes -/

theorem oneClass_locC (v : Version) (cs : List Class) : LocC (· = 0) (oneClass v cs) := by
  unfold oneClass
  exact .nextDrop (by decide) fun p => .ite (fun _ => .bind .lift fun _ => .ite (fun _ => .fail)
    fun _ => .bind (item_locC false (fun p st => .lift) _) fun _ => .pure) fun _ => .pure

theorem classRead_loc (v : Version) (s : Str) : Loc (Class.read v s) :=
  item_loc false (fun _ _ => .lift) _

theorem oneClass_inv {v : Version} {cs cs' : List Class} {s t : Stream}
    (h : oneClass v cs s = (.ok cs', t)) : ∃ (c : List CodePair) (p : CodePair) (y : Stream),
      (∀ q ∈ c, q.code = 999) ∧ p.code ≠ 999 ∧ s = toStream c ++ some (.ok p) :: y ∧
      ((p.code ≠ 0 ∧ cs' = cs ∧ t = y) ∨ (p.code = 0 ∧ ∃ n x, p.assertString = .ok n ∧
        n ≠ str!"ENDSEC" ∧ Class.read v n y = (.ok x, t) ∧ cs' = cs ++ [x])) := by
  obtain ⟨p, y, h1, h2⟩ := Rd.bind_inv h
  obtain ⟨c, hc, rfl, h9⟩ := Rd.next_ok h1
  refine ⟨c, p, y, hc, h9, rfl, ?_⟩
  by_cases hp : p.code = 0
  · rw [if_pos hp] at h2
    obtain ⟨n, y', h3, h4⟩ := Rd.bind_inv h2
    unfold Rd.lift at h3
    obtain ⟨hv, hy⟩ := Prod.mk.inj h3
    subst hy
    by_cases he : n = str!"ENDSEC"
    · rw [if_pos he] at h4; cases h4
    rw [if_neg he] at h4
    obtain ⟨x, t2, h5, h6⟩ := Rd.bind_inv h4
    obtain ⟨h7, rfl⟩ := Prod.mk.inj h6
    cases h7
    exact .inr ⟨hp, n, x, hv, he, h5, rfl⟩
  · rw [if_neg hp] at h2
    obtain ⟨h7, rfl⟩ := Prod.mk.inj h2
    cases h7
    exact .inl ⟨hp, rfl, rfl⟩

theorem oneClass_passes (v : Version) : Passes (· = 0) (oneClass v) := by
  refine ⟨fun st s st' t hs h => ?_, fun st st' u w q z q' z' hfi hq hq' hlen h =>
    (oneClass_locC v st).pass hfi hq hq' hlen h⟩
  obtain ⟨c, p, y, hc, h9, rfl, h1⟩ := oneClass_inv h
  have hy : y <:+ toStream c ++ some (.ok p) :: y :=
    (List.suffix_cons _ _).trans (List.suffix_append _ _)
  have h3 : t <:+ y := by
    rcases h1 with ⟨_, _, rfl⟩ | ⟨_, n, x, _, _, h2, _⟩
    · exact List.suffix_refl _
    · have := (classRead_loc v n).suffix y (hs.suffix hy)
      rwa [h2] at this
  refine ⟨h3.trans hy, ?_⟩
  have := h3.length_le
  simp only [List.length_append, List.length_cons]
  omega

/-- The loop over the classes, with the classes before it. -/
def classesFrom (v : Version) (k : Nat) (cs : List Class) : Rd (List Class) := do
  let rest ← Class.readAll v k
  return cs ++ rest

theorem readAll_class (v : Version) (k : Nat) (c : List CodePair) (hc : ∀ q ∈ c, q.code = 999)
    (p : CodePair) (hp : p.code = 0) (s : Str) (hv : p.assertString = .ok s) (hs : s ≠ str!"ENDSEC")
    (y : Stream) :
    Class.readAll v (k + 1) (toStream c ++ some (.ok p) :: y) = (do
      let x ← Class.read v s
      let rest ← Class.readAll v k
      return x :: rest) y := by
  conv => lhs; unfold Class.readAll
  refine (Rd.bind_ok (next_comments c hc p (by omega) _)).trans ?_
  rw [if_pos hp]
  refine (Rd.bind_ok (m := Rd.lift p.assertString) (a := s) (s := _) (s' := _)
    (by unfold Rd.lift; rw [hv])).trans ?_
  rw [if_neg hs]

theorem oneClass_loop (v : Version) (k : Nat) (cs : List Class) (s : Stream) (cs1 : List Class)
    (t : Stream) (h : oneClass v cs s = (.ok cs1, t)) :
    classesFrom v (k + 1) cs s = classesFrom v k cs1 t := by
  obtain ⟨c, p, y, hc, h9, rfl, h1⟩ := oneClass_inv h
  unfold classesFrom
  rcases h1 with ⟨hp, rfl, rfl⟩ | ⟨hp, n, x, hv, hn, h2, rfl⟩
  · rw [Rd.run_bind, Rd.run_bind]
    have : Class.readAll v (k + 1) (toStream c ++ some (.ok p) :: t) = Class.readAll v k t := by
      conv => lhs; unfold Class.readAll
      refine (Rd.bind_ok (next_comments c hc p h9 _)).trans ?_
      rw [if_neg hp]
    rw [this]
  · rw [Rd.run_bind, readAll_class v k c hc p hp n hv hn y, Rd.bind_ok h2, Rd.run_bind]
    conv => rhs; rw [Rd.run_bind]
    rcases Class.readAll v k t with ⟨e | r, t3⟩
    · rfl
    · change (Except.ok (cs ++ x :: r), t3) = (Except.ok ((cs ++ [x]) ++ r), t3)
      rw [List.append_assoc]
      rfl

theorem classesFrom_nil (v : Version) : (Rd.withFuel fun k => classesFrom v k []) =
    Rd.withFuel (Class.readAll v) := by
  funext s
  rw [Rd.run_withFuel, Rd.run_withFuel]
  unfold classesFrom
  rw [Rd.run_bind]
  rcases Class.readAll v (s.length + 1) s with ⟨e | r, t3⟩ <;> rfl

theorem classApply_unknown {p : CodePair} (h : Class.Unknown p.code) (v : Version) (c : Class) :
    Class.apply v p c = .ok c := by
  simp only [Class.Unknown, List.mem_cons, List.not_mem_nil, or_false, not_or] at h
  obtain ⟨_, h1, h2, h3, h4, h5, h6, h7, _⟩ := h
  unfold Class.apply
  rw [if_neg h1, if_neg h2, if_neg h3, if_neg h4, if_neg h5, if_neg h6, if_neg h7]

/-- An unknown pair inside a class. -/
theorem classes_code (v : Version) {p : CodePair} (h : Class.Unknown p.code) (h1000 : p.code < 1000)
    {cs : List Class} {c : Class} {u w : Stream} {op q : CodePair} {z : Stream} {s : Str}
    (hop : op.code = 0 ∧ op.value = .str s) (hs : s ≠ str!"ENDSEC") (hq : Outside q.code)
    (hfi : Fine false (u ++ some (.ok op) :: (w ++ some (.ok q) :: z)))
    (hh : Steps (oneClass v) [] (u ++ some (.ok op) :: (w ++ some (.ok q) :: z)) cs
      (some (.ok op) :: (w ++ some (.ok q) :: z)))
    (hh' : Steps (oneClassPair v) (if v ≤ .r13 then { Class.dflt with recordName := s } else
      Class.dflt) (w ++ some (.ok q) :: z) c (some (.ok q) :: z)) :
    Same (Rd.withFuel (Class.readAll v)) (u ++ some (.ok op) :: (w ++ some (.ok q) :: z))
      (u ++ some (.ok op) :: (w ++ some (.ok p) :: some (.ok q) :: z)) := by
  rw [← classesFrom_nil]
  have hfw : Fine false (w ++ some (.ok q) :: z) :=
    hfi.suffix ((List.suffix_cons _ _).trans (List.suffix_append _ _))
  have h09 : p.code ≠ 0 ∧ p.code ≠ 999 := by
    simp only [Class.Unknown, List.mem_cons, List.not_mem_nil, or_false, not_or] at h
    exact ⟨h.1, h.2.2.2.2.2.2.2.2⟩
  refine Steps.same (oneClass_passes v) (f := classesFrom v) (oneClass_loop v) (q := op) (q' := op)
    hop.1 hop.1 (by simp) hh hfi fun k hc => ?_
  have hsk := item_skip false (step := fun p c => Rd.lift (Class.apply v p c)) (fun p st => .lift)
    h09.1 (by unfold Outside; omega) (by rw [classApply_unknown h v c]; rfl) hq hfw hh'
  have o : ∀ k y, Class.readAll v (k + 1) (some (.ok op) :: y) = _ := fun k y =>
    readAll_class v k [] (by simp) op hop.1 s (by unfold CodePair.assertString; rw [hop.2]) hs y
  have e1 : (w ++ some (.ok p) :: some (.ok q) :: z).length -
      (w ++ some (Except.ok q) :: z : Stream).length = 1 := by
    simp only [List.length_append, List.length_cons]; omega
  rw [e1]
  have same : Same (Class.readAll v (k + 1)) (some (.ok op) :: (w ++ some (.ok q) :: z))
      (some (.ok op) :: (w ++ some (.ok p) :: some (.ok q) :: z)) := by
    intro hc
    rw [o] at hc ⊢
    rw [o]
    refine Same.bind ?_ hc
    intro hc
    unfold Class.read at hc ⊢
    rw [hsk hc]
    exact .refl
  have same' : Same (classesFrom v (k + 1) cs) (some (.ok op) :: (w ++ some (.ok q) :: z))
      (some (.ok op) :: (w ++ some (.ok p) :: some (.ok q) :: z)) := same.bind
  refine (same' hc).trans ?_
  have hb : Below (classesFrom v (k + 1) cs) (classesFrom v (k + 1 + 1) cs) :=
    .bind ((classReadAll_mono v).le (by omega)) fun _ => .rfl
  rw [hb _ ((same' hc).calm hc)]
  exact .refl

end Dxf
