import Verif.Lemmas.SafeItems
import Verif.Lemmas.NiceFile

/-! The readers of objects do not panic. -/

namespace Dxf

variable {room : Nat}

/-! ### Parts of objects -/

theorem geometryArms_sane (p : CodePair) : ∀ a ∈ geometryArms, a.code = p.code → a.act.Sane p :=
  any_code (sane_of_on _ (by decide +kernel) p)

theorem geometryLoop_safe (fuel : Nat) : ∀ g, Safe room (Geometry.loop fuel g) := by
  induction fuel with
  | zero => exact fun _ => .fail (by simp)
  | succ fuel ih =>
    intro g
    unfold Geometry.loop
    refine .next? .pure fun p => .ite (fun _ => .pure) fun _ => ?_
    cases findArm geometryArms p.code with
    | none => exact .bindBack .pure
    | some _ =>
      exact .drop (.bindLift (applyPair_sane _ (geometryArms_sane p) _) fun _ => ih _)

theorem geometryRead_safe : Safe room Geometry.read := by
  unfold Geometry.read
  exact .next? .pure fun p => .bindBack (.ite
    (fun _ => .bind (.withFuel fun _ => geometryLoop_safe _ _) fun _ => .pure) fun _ => .pure)

theorem geometryReadAll_safe (fuel : Nat) : Safe room (Geometry.readAll fuel) := by
  induction fuel with
  | zero => exact .fail (by simp)
  | succ fuel ih =>
    unfold Geometry.readAll
    refine .bind geometryRead_safe fun o => ?_
    cases o with
    | none => exact .pure
    | some g => exact .bind ih fun _ => .pure

theorem sectionTypeLoop_safe (fuel : Nat) : ∀ t, Safe room (SectionType.loop fuel t) := by
  induction fuel with
  | zero => exact fun _ => .fail (by simp)
  | succ fuel ih =>
    intro t
    unfold SectionType.loop
    refine .next? .pure fun p => ?_
    refine .ite (fun _ => .bindBack .pure) fun _ => ?_
    refine .ite (fun _ => .drop (.bindLift .assertString fun _ => ih _)) fun _ => ?_
    refine .ite (fun _ => .drop (.bind (.withFuel fun _ => geometryReadAll_safe _) fun _ => ih _))
      fun _ => ?_
    refine .ite (fun _ => .drop (ih _)) fun _ => ?_
    refine .ite (fun _ => .drop (.bindLift .assertI32 fun _ => ih _)) fun _ => ?_
    refine .ite (fun _ => .drop (.bindLift .assertI32 fun _ => ih _)) fun _ => ?_
    refine .ite (fun _ => .drop (.bindLift .asHandle fun _ => ih _)) fun _ => ?_
    refine .ite (fun _ => .drop (.bindLift .asHandle fun _ => ih _)) fun _ => ?_
    exact .bindBack .pure

theorem sectionTypeRead_safe : Safe room SectionType.read := by
  unfold SectionType.read
  exact .next? .pure fun p => .bindBack (.ite (fun _ => .pure)
    fun _ => .bind (.withFuel fun _ => sectionTypeLoop_safe _ _) fun _ => .pure)

theorem sectionTypeReadAll_safe (fuel : Nat) : Safe room (SectionType.readAll fuel) := by
  induction fuel with
  | zero => exact .fail (by simp)
  | succ fuel ih =>
    unfold SectionType.readAll
    refine .bind sectionTypeRead_safe fun o => ?_
    cases o with
    | none => exact .pure
    | some g => exact .bind ih fun _ => .pure

theorem cellStyle_safe (fuel : Nat) : ∀ b c, Safe room (CellStyle.read fuel b c) := by
  induction fuel with
  | zero => exact fun _ _ => .fail (by simp)
  | succ fuel ih =>
    intro b c
    unfold CellStyle.read
    refine .next? .pure fun p => .ite (fun _ => .pure) fun _ => .ite (fun _ => .ite
      (fun _ => .bindBack .pure) fun _ => .drop (.bindLift .assertString fun _ => ih _ _)) fun _ => ?_
    cases findArm cellArms p.code with
    | none => exact .bindBack .pure
    | some _ =>
      exact .drop (.bindLift (applyPair_sane _
        (any_code (sane_of_on _ (by decide +kernel) p)) _) fun _ => ih _ _)

/-! ### Data tables -/

/-- What is known of the table while its pairs `b` are read. -/
structure TableInv (w : OWork) (b : Stream) : Prop where
  cols : w.gotCols = true → ∃ x, some (.ok x) ∈ b ∧ x.code = 90
  rows : w.gotRows = true → ∃ x, some (.ok x) ∈ b ∧ x.code = 91
  noCols : w.gotCols = false → w.extra.table.columnCount = 0
  noRows : w.gotRows = false → w.extra.table.rowCount = 0
  shape : w.gotCols = true → w.gotRows = true →
    w.extra.table.values.length = w.extra.table.rowCount ∧
    ∀ r ∈ w.extra.table.values, r.length = w.extra.table.columnCount

theorem TableInv.mono {w : OWork} {b : Stream} (h : TableInv w b) (c : Stream) :
    TableInv w (b ++ c) where
  cols hg := by
    obtain ⟨x, h1, h2⟩ := h.cols hg
    exact ⟨x, List.mem_append_left _ h1, h2⟩
  rows hg := by
    obtain ⟨x, h1, h2⟩ := h.rows hg
    exact ⟨x, List.mem_append_left _ h1, h2⟩
  noCols := h.noCols
  noRows := h.noRows
  shape := h.shape

/-- Setting a value does not panic, and keeps what is known. -/
theorem TableInv.set {w : OWork} {b s : Stream} (h : TableInv w b) (x : DataTableValue)
    {Q : OWork → Stream → Prop}
    (hQ : ∀ t, TableInv { w with extra := { w.extra with table := t } } b →
      Q { w with extra := { w.extra with table := t } } s) : Ends s Q (w.setValue x s) := by
  unfold OWork.setValue
  have hg : w.row < w.extra.table.rowCount → w.col < w.extra.table.columnCount →
      w.gotCols = true ∧ w.gotRows = true := by
    intro h1 h2
    constructor
    · cases hc : w.gotCols
      · have := h.noCols hc
        omega
      · rfl
    · cases hc : w.gotRows
      · have := h.noRows hc
        omega
      · rfl
  refine .bindLift (List.suffix_refl s) ?_ fun t ht => .pure (List.suffix_refl s) (hQ t ?_)
  · unfold DataTable.setValue
    split
    · rename_i hlt
      obtain ⟨g1, g2⟩ := hg hlt.1 hlt.2
      obtain ⟨s1, s2⟩ := h.shape g1 g2
      have hr : w.row < w.extra.table.values.length := by omega
      rw [List.getElem?_eq_getElem hr]
      dsimp only
      rw [s2 _ (List.getElem_mem hr), if_pos hlt.2]
      exact Sane.ok
    · exact Sane.ok
  · unfold DataTable.setValue at ht
    split at ht
    · rename_i hlt
      obtain ⟨g1, g2⟩ := hg hlt.1 hlt.2
      obtain ⟨s1, s2⟩ := h.shape g1 g2
      have hr : w.row < w.extra.table.values.length := by omega
      rw [List.getElem?_eq_getElem hr] at ht
      dsimp only at ht
      rw [s2 _ (List.getElem_mem hr), if_pos hlt.2] at ht
      cases ht
      refine ⟨h.cols, h.rows, h.noCols, h.noRows, fun _ _ => ⟨by simpa using s1, ?_⟩⟩
      intro r hr'
      rcases List.mem_or_eq_of_mem_set hr' with hm | rfl
      · exact s2 r hm
      · rw [List.length_set]
        exact s2 _ (List.getElem_mem hr)
    · cases ht
      exact h

/-- What a data table reader does with the pair `q`, after the pairs `b`. -/
theorem dataTable_ends {w : OWork} {b s : Stream} {q : CodePair} {act : Rd OWork}
    (h : TableInv w b) (hq : q.code = 90 ∨ q.code = 91 → ∀ x, some (.ok x) ∈ b → x.code ≠ q.code)
    (hact : w.dataTable q = some act) :
    Ends s (fun w' s' => TableInv w' (b ++ [some (.ok q)]) ∧ s' = s) (act s) := by
  have hr := List.suffix_refl s
  have hm := h.mono [some (.ok q)]
  have hin : ∃ x, some (.ok x) ∈ b ++ [some (.ok q)] ∧ x.code = q.code :=
    ⟨q, by simp, rfl⟩
  have same : ∀ w' : OWork, w'.gotCols = w.gotCols → w'.gotRows = w.gotRows →
      w'.extra.table.columnCount = w.extra.table.columnCount →
      w'.extra.table.rowCount = w.extra.table.rowCount →
      w'.extra.table.values = w.extra.table.values → TableInv w' (b ++ [some (.ok q)]) := by
    intro w' e1 e2 e3 e4 e5
    refine ⟨?_, ?_, ?_, ?_, ?_⟩
    · rw [e1]; exact hm.cols
    · rw [e2]; exact hm.rows
    · rw [e1, e3]; exact hm.noCols
    · rw [e2, e4]; exact hm.noRows
    · rw [e1, e2, e3, e4, e5]; exact hm.shape
  unfold OWork.dataTable at hact
  dsimp only at hact
  split at hact
  case h_1 | h_4 =>
    cases hact
    exact .bindLift hr .assertString fun _ _ => .pure hr ⟨same _ rfl rfl rfl rfl rfl, rfl⟩
  case h_2 hc =>
    cases hact
    refine .bindLift hr .assertI32 fun n _ => .pure hr ⟨?_, rfl⟩
    have hg : w.gotCols = false := by
      cases hg : w.gotCols
      · rfl
      · obtain ⟨x, h1, h2⟩ := h.cols hg
        exact absurd (h2.trans hc.symm) (hq (.inl hc) x h1)
    rw [hg, Bool.not_false, Bool.and_true]
    have hin' : ∃ x, some (.ok x) ∈ b ++ [some (.ok q)] ∧ x.code = 90 := hc ▸ hin
    cases hw : w.gotRows
    · refine ⟨fun _ => hin', fun hx => ?_, fun hx => (by cases hx), fun _ => h.noRows hw,
        fun _ hx => ?_⟩
      · cases hx
      · cases hx
    · refine ⟨fun _ => hin', fun _ => hm.rows hw, fun hx => (by cases hx), fun hx => ?_,
        fun _ _ => ⟨?_, ?_⟩⟩
      · cases hx
      · simp [OWork.createTable]
      · intro r hr'
        have := List.eq_of_mem_replicate hr'
        rw [this, List.length_replicate]
        rfl
  case h_3 hc =>
    cases hact
    refine .bindLift hr .assertI32 fun n _ => .pure hr ⟨?_, rfl⟩
    have hg : w.gotRows = false := by
      cases hg : w.gotRows
      · rfl
      · obtain ⟨x, h1, h2⟩ := h.rows hg
        exact absurd (h2.trans hc.symm) (hq (.inr hc) x h1)
    rw [hg, Bool.not_false, Bool.and_true]
    have hin' : ∃ x, some (.ok x) ∈ b ++ [some (.ok q)] ∧ x.code = 91 := hc ▸ hin
    cases hw : w.gotCols
    · refine ⟨fun hx => ?_, fun _ => hin', fun _ => h.noCols hw, fun hx => (by cases hx),
        fun hx _ => ?_⟩
      · cases hx
      · cases hx
    · refine ⟨fun _ => hm.cols hw, fun _ => hin', fun hx => ?_, fun hx => (by cases hx),
        fun _ _ => ⟨?_, ?_⟩⟩
      · cases hx
      · simp [OWork.createTable]
      · intro r hr'
        have := List.eq_of_mem_replicate hr'
        rw [this, List.length_replicate]
        rfl
  case h_5 =>
    cases hact
    exact .bindLift hr .assertI32 fun _ _ => .pure hr ⟨same _ rfl rfl rfl rfl rfl, rfl⟩
  case h_6 =>
    cases hact
    exact .bindLift hr .assertString fun _ _ => hm.set _ fun _ ht => ⟨ht, rfl⟩
  case h_7 =>
    cases hact
    exact .bindLift hr .assertF64 fun _ _ => hm.set _ fun _ ht => ⟨ht, rfl⟩
  case h_8 =>
    cases hact
    exact .bindLift hr .assertI16 fun _ _ => hm.set _ fun _ ht => ⟨ht, rfl⟩
  case h_9 =>
    cases hact
    exact .bindLift hr .assertI32 fun _ _ => hm.set _ fun _ ht => ⟨ht, rfl⟩
  case h_10 | h_11 | h_13 | h_14 =>
    cases hact
    exact .bindLift hr .assertF64 fun _ _ => .pure hr ⟨same _ rfl rfl rfl rfl rfl, rfl⟩
  case h_12 | h_15 =>
    cases hact
    refine .bindLift hr .assertF64 fun _ _ => .bind (Q := fun w' s' =>
      TableInv w' (b ++ [some (.ok q)]) ∧ s' = s) (hm.set _ fun _ ht => ⟨ht, rfl⟩) ?_
    rintro w' _ - ⟨hw', rfl⟩
    exact .pure hr ⟨⟨hw'.cols, hw'.rows, hw'.noCols, hw'.noRows, hw'.shape⟩, rfl⟩
  case h_16 =>
    split at hact
    · cases hact
      exact .bindLift hr .asHandle fun _ _ => hm.set _ fun _ ht => ⟨ht, rfl⟩
    · cases hact

/-! ### Sun studies -/

theorem sunStudy_ends {w : OWork} {m : OMode} {s : Stream} {q : CodePair} {act : Rd OWork}
    (h : ∀ jd, w.day = some jd → jd.toInt ≤ lastSunDay)
    (hq : q.code = 90 → ∀ n, q.value = .integer n → n.toInt ≤ lastSunDay)
    (hact : w.sunStudy m q = some act) :
    Ends s (fun w' s' => (∀ jd, w'.day = some jd → jd.toInt ≤ lastSunDay) ∧ s' = s) (act s) := by
  have hr := List.suffix_refl s
  unfold OWork.sunStudy at hact
  split at hact
  · rename_i hc
    cases hact
    cases hd : w.day with
    | none =>
      refine .bindLift hr .assertI32 fun n hn => .pure hr ⟨?_, rfl⟩
      rintro _ ⟨⟩
      exact hq hc.1 n (integer_of_assert hn)
    | some jd =>
      obtain ⟨d, hd1, hd2⟩ := date_int (n := jd.toInt) (by have := BitVec.le_toInt jd; omega)
        (h jd hd)
      refine .bindLift hr (by rw [hd1]; exact Sane.ok) fun d' hd' => ?_
      rw [hd1] at hd'
      cases hd'
      refine .bindLift hr .assertI32 fun n _ => .bindLift hr ?_ fun _ _ => .pure hr ⟨?_, rfl⟩
      · unfold OWork.addSeconds
        have hM : Date.maxSecs = 95051804 * 86400 - 1 := rfl
        have hn := BitVec.toInt_lt (x := n)
        rw [if_neg]
        · exact Sane.ok
        · change ¬ ((_ : Int) < (show Int from d) + _)
          rw [hM]
          generalize (show Int from d) = d' at *
          omega
      · rintro _ ⟨⟩
  · split at hact
    · cases hact
      exact .bindLift hr .assertI16 fun _ _ => .pure hr ⟨h, rfl⟩
    · cases hact

/-! ### All objects -/

/-- What applying a pair to an entry does to its fields and to the stream. -/
theorem entryApply_ends {ds : List Decl} (arms : List (Arm ds)) {p : CodePair} {s : Stream}
    (hs : Harmless room s) (h : ∀ a ∈ arms, a.code = p.code → a.act.Sane p) (e : Entry ds) :
    Ends s (fun e' s' => (e'.fields = e.fields ∨ applyPair arms e.fields p = .ok e'.fields) ∧
      (p.code = 102 ∨ p.code = 1001 ∨ s' = s)) (Entry.apply arms p e s) := by
  have hr := List.suffix_refl s
  unfold Entry.apply
  refine .ite (fun h1 => ?_) fun _ => .ite (fun h1 => ?_) fun _ => ?_
  · exact .bindLift hr .assertString fun _ _ =>
      ((extGroup_safe _ _).on hs hr).bind fun _ _ h _ => .pure h ⟨.inl rfl, .inl h1⟩
  · exact .bindLift hr .assertString fun _ _ =>
      ((xData_safe _).on hs hr).bind fun _ _ h _ => .pure h ⟨.inl rfl, .inr (.inl h1)⟩
  · exact .bindLift hr (applyPair_sane arms h _) fun _ hx =>
      .pure hr ⟨.inr hx, .inr (.inr rfl)⟩

/-- The names of layers that an object refers to. -/
def OName.layerCount (k : OName) (e : Entry k.decls) : Nat := (Object.layers ⟨k, e, {}⟩).length

theorem layers_length (k : OName) (e : Entry k.decls) (x : OExtra) :
    (Object.layers ⟨k, e, x⟩).length = k.layerCount e := by
  cases k <;> rfl

theorem push_length {t : Ty} (c : RConv t) (x v : List t.den) {p : CodePair}
    (h : (FRead.push c).apply x p = .ok v) : v.length ≤ x.length + 1 := by
  change (c.read p).map (fun v => List.append x [v]) = _ at h
  cases hx : c.read p with
  | error e => rw [hx] at h; cases h
  | ok w =>
    rw [hx] at h
    cases h
    change (x ++ [w]).length ≤ _
    simp

/-- A pair adds at most one name of a layer. -/
theorem layerCount_apply (k : OName) (m : OMode) (p : CodePair) (e e' : Entry k.decls)
    (h : applyPair (k.kind.arms m) e.fields p = .ok e'.fields) :
    k.layerCount e' ≤ k.layerCount e + 1 := by
  have hfind : ∀ {ds : List Decl} {arms : List (Arm ds)} {r r' : Rec ds},
      applyPair arms r p = .ok r' → r' = r ∨ ∃ a ∈ arms, a.act.apply r p = .ok r' := by
    intro ds arms r r' h
    unfold applyPair at h
    split at h
    · rename_i a ha
      exact .inr ⟨a, List.mem_of_find?_eq_some ha, h⟩
    · cases h
      exact .inl rfl
  have hkeep : ∀ {ds : List Decl} {i j : Nat} {c : FRead (tyAt ds i)} {r r' : Rec ds},
      (Act.on i c).apply r p = .ok r' → j ≠ i → r' j = r j := by
    intro ds i j c r r' h hj
    unfold Act.apply at h
    dsimp only at h
    cases hx : c.apply (r i) p with
    | error e => rw [hx] at h; cases h
    | ok v => rw [hx] at h; cases h; exact Rec.set_ne r v hj
  have hon : ∀ {ds : List Decl} {i : Nat} {c : FRead (tyAt ds i)} {r r' : Rec ds},
      (Act.on i c).apply r p = .ok r' → c.apply (r i) p = .ok (r' i) := by
    intro ds i c r r' h
    unfold Act.apply at h
    dsimp only at h
    cases hx : c.apply (r i) p with
    | error e => rw [hx] at h; cases h
    | ok v => rw [hx] at h; cases h; exact congrArg _ (Rec.set_self r i v).symm
  have hnil : ∀ {ds : List Decl} {r r' : Rec ds} {i : Nat},
      ¬ ∃ a ∈ ([] : List (Arm ds)), a.act.apply r p = .ok r' := by simp
  have hcons : ∀ {ds : List Decl} {b : Arm ds} {l : List (Arm ds)} {r r' : Rec ds},
      (∃ a ∈ b :: l, a.act.apply r p = .ok r') →
      b.act.apply r p = .ok r' ∨ ∃ a ∈ l, a.act.apply r p = .ok r' := by
    rintro ds b l r r' ⟨a, ha, h⟩
    rcases List.mem_cons.mp ha with rfl | ha
    · exact .inl h
    · exact .inr ⟨a, ha, h⟩
  cases k
  case layerFilter =>
    change List.length (e'.fields 2 : List Str) ≤ List.length (e.fields 2 : List Str) + 1
    rcases hfind h with h | h
    · rw [h]; omega
    rcases hcons h with h | h
    · exact push_length (t := .str) .str _ _ (hon h)
    rcases hcons h with h | h
    · rw [hkeep h (by decide)]; omega
    rcases hcons h with h | h
    · rw [hkeep h (by decide)]; omega
    · obtain ⟨a, ha, -⟩ := h
      cases ha
  case layerIndex =>
    change List.length (e'.fields 3 : List Str) ≤ List.length (e.fields 3 : List Str) + 1
    rcases hfind h with h | h
    · rw [h]; omega
    rcases hcons h with h | h
    · rw [hkeep h (by decide)]; omega
    rcases hcons h with h | h
    · exact push_length (t := .str) .str _ _ (hon h)
    rcases hcons h with h | h
    · rw [hkeep h (by decide)]; omega
    rcases hcons h with h | h
    · rw [hkeep h (by decide)]; omega
    rcases hcons h with h | h
    · rw [hkeep h (by decide)]; omega
    rcases hcons h with h | h
    · rw [hkeep h (by decide)]; omega
    · obtain ⟨a, ha, -⟩ := h
      cases ha
  all_goals exact Nat.zero_le _

/-- What is known of the state of a reader after the pairs `b`. -/
structure OInv (k : OName) (st : OState k) (b : Stream) : Prop where
  layers : k.layerCount st.2.1 ≤ b.length
  table : k = .dataTable → TableInv st.2.2 b
  study : k = .sunStudy → ∀ jd, st.2.2.day = some jd → jd.toInt ≤ lastSunDay

theorem ofType_names {n : Str} {k : OName} (h : OName.ofType n = some k) : n ∈ k.kind.names := by
  have h := List.find?_some h
  simpa using h

theorem odd_ends {k : OName} {m : OMode} {q : CodePair} {w : OWork} {act : Rd OWork} {b s : Stream}
    (hs : Harmless room s) (ht : k = .dataTable → TableInv w b)
    (hd : k = .sunStudy → ∀ jd, w.day = some jd → jd.toInt ≤ lastSunDay)
    (htables : k = .dataTable → q.code = 90 ∨ q.code = 91 →
      ∀ x, some (.ok x) ∈ b → x.code ≠ q.code)
    (hstudies : k = .sunStudy → q.code = 90 → ∀ n, q.value = .integer n → n.toInt ≤ lastSunDay)
    (h : k.odd m q w = some act) :
    Ends s (fun w' s' => (k = .dataTable → TableInv w' (b ++ [some (.ok q)])) ∧
      (k = .sunStudy → ∀ jd, w'.day = some jd → jd.toInt ≤ lastSunDay) ∧
      (k ≠ .sectionSettings ∧ k ≠ .tableStyle → s' = s)) (act s) := by
  have hr := List.suffix_refl s
  have dict : ∀ act, w.dictionary q = some act → Ends s (fun _ s' => s' = s) (act s) := by
    intro act h
    unfold OWork.dictionary at h
    split at h
    · cases h
      exact .bindLift hr .assertString fun _ _ => .pure hr rfl
    · split at h
      · cases h
        exact .bindLift hr .asHandle fun _ _ => .pure hr rfl
      · cases h
  cases k
  case dictionary => exact (dict act h).imp fun _ _ _ h => ⟨by simp, by simp, fun _ => h⟩
  case dictionaryWithDefault => exact (dict act h).imp fun _ _ _ h => ⟨by simp, by simp, fun _ => h⟩
  case dataTable =>
    exact (dataTable_ends (ht rfl) (htables rfl) h).imp fun _ _ _ h =>
      ⟨fun _ => h.1, by simp, fun _ => h.2⟩
  case sunStudy =>
    exact (sunStudy_ends (hd rfl) (hstudies rfl) h).imp fun _ _ _ h =>
      ⟨by simp, fun _ => h.1, fun _ => h.2⟩
  case sectionSettings =>
    replace h : w.sections q = some act := h
    unfold OWork.sections at h
    split at h
    · cases h
      exact ((Safe.bind (Safe.withFuel fun _ => sectionTypeReadAll_safe _) fun _ => .pure) s hs).imp
        fun _ _ _ _ => ⟨by simp, by simp, by simp⟩
    · cases h
  case spatialFilter =>
    replace h : w.spatial m q = some act := h
    have he : ∀ f, Sane (w.editLast f) := by
      intro f
      unfold OWork.editLast
      split <;> simp [Sane]
    unfold OWork.spatial at h
    split at h
    · cases h
      exact .bindLift hr .assertF64 fun _ _ => .pure hr ⟨by simp, by simp, fun _ => rfl⟩
    · split at h
      · cases h
        exact .lift hr (.bind .assertF64 fun _ _ => he _) fun _ _ => ⟨by simp, by simp, fun _ => rfl⟩
      · split at h
        · cases h
          exact .lift hr (.bind .assertF64 fun _ _ => he _)
            fun _ _ => ⟨by simp, by simp, fun _ => rfl⟩
        · split at h
          · cases h
            exact .bindLift hr .assertF64 fun _ _ => .pure hr ⟨by simp, by simp, fun _ => rfl⟩
          · cases h
  case tableStyle =>
    replace h : w.cells q = some act := h
    unfold OWork.cells at h
    split at h
    · rename_i hp
      cases h
      refine Ends.imp (Q := Any) ?_ fun _ _ _ _ => ⟨by simp, by simp, by simp⟩
      have hc : Ends s Any ((Rd.putBack q >>= fun _ =>
          Rd.withFuel fun fuel => CellStyle.read fuel false (Rec.dflt _)) s) := by
        rw [cells_run hp]
        exact Safe.bindLift .assertString (fun _ => cellStyle_safe _ _ _) s hs
      exact hc.bind fun _ _ h _ => .pure h trivial
    · cases h
  case xRecordObject =>
    replace h : w.xRecord m q = some act := h
    unfold OWork.xRecord at h
    split at h
    · cases h
      exact .pure hr ⟨by simp, by simp, fun _ => rfl⟩
    · cases h
  all_goals exact absurd h (by simp [OName.odd])

/-- The fields of an object are read without a panic; the names of layers have been in the
stream. -/
theorem objectFields_ends {k : OName} {n : Str} (hk : OName.ofType n = some k) {p : CodePair}
    {s : Stream} (hs : Harmless room (some (.ok p) :: s)) (hc : p.code = 0) (hv : p.value = .str n) :
    Ends s (fun st s' => s'.length + k.layerCount st.2.1 ≤ s.length)
      (Rd.withFuel (fun fuel =>
        itemLoop k.kind.eof k.step fuel (OMode.start, Entry.dflt k.decls, {})) s) := by
  have hs' : Harmless room s := hs.suffix (List.suffix_cons _ _)
  have hn := ofType_names hk
  have hin : ∀ {b q s1}, s = b ++ some (.ok q) :: s1 → Within b →
      InItem (some (.ok p) :: s) n b q := by
    intro b q s1 h hw
    exact ⟨[], p, s1, by rw [h]; rfl, hc, hv, hw⟩
  have hname : ∀ t, k.kind.names = [t] → n = t := fun t h => by rw [h] at hn; simpa using hn
  refine (itemLoop_ends (k ≠ .sectionSettings ∧ k ≠ .tableStyle) hs' k.kind.eof (OInv k) ?_ ?_ _ _
    [] s rfl (fun _ => .inl (by simp)) ?_).imp ?_
  · intro st b c h
    exact ⟨by rw [List.length_append]; have := h.layers; omega, fun hk => (h.table hk).mono _, h.study⟩
  · intro q st b s1 h hw hi _
    have hs1 : Harmless room s1 := hs'.suffix ⟨b ++ [some (.ok q)], by rw [h]; simp⟩
    have hl : ∀ x : Item, (b ++ [x]).length = b.length + 1 := by simp
    unfold OName.step
    cases ho : k.odd st.1 q st.2.2 with
    | some act =>
      refine (odd_ends hs1 hi.table hi.study ?_ ?_ ho).bind fun w s2 h2 hw2 => .pure h2 ?_
      · rintro rfl hq
        have := hname str!"DATATABLE" (by decide +kernel)
        exact hs.tables b q (this ▸ hin h (hw (by simp))) hq
      · rintro rfl hq n' hn'
        have := hname str!"SUNSTUDY" (by decide +kernel)
        exact hs.studies b q n' (this ▸ hin h (hw (by simp))) hq hn'
      · refine ⟨⟨?_, hw2.1, hw2.2.1⟩, fun w => .inr (.inr (hw2.2.2 w))⟩
        have := hi.layers
        rw [hl]
        dsimp only
        omega
    | none =>
      refine (entryApply_ends _ hs1 (k.arms_sane _ q ?_) _).bind fun e s2 h2 he => .pure h2 ?_
      · rintro (rfl | rfl) hq f hf
        · have := hname str!"LAYER_INDEX" (by decide +kernel)
          exact hs.layerIndexes b q f (this ▸ hin h (hw (by simp))) hq hf
        · have := hname str!"SPATIAL_INDEX" (by decide +kernel)
          exact hs.spatialIndexes b q f (this ▸ hin h (hw (by simp))) hq hf
      · refine ⟨⟨?_, fun hk => (hi.table hk).mono _, hi.study⟩, fun _ => he.2⟩
        have := hi.layers
        rw [hl]
        dsimp only
        rcases he.1 with h1 | h1
        · have : k.layerCount e = k.layerCount st.2.1 := by
            cases k <;> first | rfl | (unfold OName.layerCount Object.layers; dsimp only; rw [h1])
          omega
        · have := layerCount_apply k _ q st.2.1 e h1
          omega
  · exact ⟨by cases k <;> exact Nat.le_refl 0, fun _ => ⟨nofun, nofun, fun _ => rfl, fun _ => rfl, nofun⟩,
      fun _ => nofun⟩
  · rintro st s' - ⟨b', h1, h2⟩
    have := h2.layers
    rw [h1, List.length_append]
    omega

/-- One for an object, and one for each of its names of layers. -/
def Object.weight : Option Object → Nat
  | none => 0
  | some o => 1 + o.layers.length

theorem post_layers (o : Object) : o.post.layers = o.layers := by
  obtain ⟨k, e, x⟩ := o
  cases k <;> rfl

theorem readObject_gets (fuel : Nat) : Gets room 0 Object.weight (readObject fuel) := by
  induction fuel with
  | zero => exact .fail (by simp)
  | succ fuel ih =>
    have ih' : Gets room 1 Object.weight (readObject fuel) := ih.mono fun _ => by omega
    unfold readObject
    refine .next fun p => .ite (fun hp => .bindLift .assertString fun n hn => ?_)
      fun _ => .fail (by simp)
    refine .ite (fun _ => .bindBack (.pure (by simp [Object.weight]))) fun _ => ?_
    cases hk : OName.ofType n with
    | none => exact .drop (.bindSafe swallowItem_safe fun _ => ih')
    | some k =>
      intro s hs
      have := objectFields_ends hk hs hp (str_of_assert hn)
      refine (this.weaken (List.suffix_cons _ _)).bind fun st s' hs' h => .pure hs' ?_
      simp only [Object.weight, post_layers, layers_length]
      omega

theorem nextObject_gets : Gets room 0 Object.weight nextObject := by
  intro s hs
  obtain ⟨h1, h2, h3⟩ := Gets.withFuel (fun n => readObject_gets (room := room) n) s hs
  unfold nextObject
  rcases hx : Rd.withFuel readObject s with ⟨x, s'⟩
  rw [hx] at h1 h2 h3
  rcases x with e | a
  · have h4 : ∀ a, (Except.ok none : Except DxfErr (Option Object)) = .ok a →
        s'.length + Object.weight a ≤ s.length + 0 := by
      rintro _ ⟨⟩
      exact h2.length_le
    cases e with
    | panic => exact absurd rfl h1
    | outOfFuel => exact ⟨by simp [Sane], h2, fun a h => by cases h⟩
    | _ => exact ⟨Sane.ok, h2, h4⟩
  · exact ⟨Sane.ok, h2, h3⟩

theorem collectObjects_gets (fuel : Nat) : ∀ k, Gets room k
    (fun os => k + (os.map fun o => 1 + o.layers.length).sum) (collectObjects fuel) := by
  induction fuel with
  | zero => exact fun _ => .fail (by simp)
  | succ fuel ih =>
    intro k
    unfold collectObjects
    refine .bind (nextObject_gets.mono (c' := fun o => k + Object.weight o) fun _ => by omega)
      fun o => ?_
    cases o with
    | none => exact .pure (by simp)
    | some o =>
      refine .bind (ih _) fun os => .pure ?_
      simp only [Object.weight, List.map_cons, List.sum_cons]
      omega

theorem readObjects_gets (k : Nat) : Gets room k
    (fun os => k + (os.map fun o => 1 + o.layers.length).sum) readObjects :=
  .withFuel fun n => collectObjects_gets n k

end Dxf
