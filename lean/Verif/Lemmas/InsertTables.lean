import Verif.Lemmas.InsertObjects

/-! Unknown tables and header variables. -/

namespace Dxf

namespace Drawing

variable {Img : Type}

/-! ### Items of a section -/

/-- An item of a section that begins with a mark. -/
def wholeItem (type : Str) (callback : Drawing Img → Rd (Drawing Img)) (d : Drawing Img) :
    Rd (Drawing Img) := do
  expect type
  callback d

theorem readItems_open (type : Str) (hne : type ≠ str!"ENDSEC")
    (callback : Drawing Img → Rd (Drawing Img)) (k : Nat) (d : Drawing Img)
    (c : List CodePair) (hc : ∀ q ∈ c, q.code = 999) (op : CodePair)
    (hop : op.code = 0 ∧ op.value = .str type) (y : Stream) :
    readItems type callback (k + 1) d (toStream c ++ some (.ok op) :: y) =
      (callback d >>= readItems type callback k) y := by
  conv => lhs; unfold readItems
  refine (Rd.bind_ok (next_comments c hc op (by omega) _)).trans ?_
  rw [if_pos hop.1]
  refine (Rd.bind_ok (m := Rd.lift op.assertString) (a := type) (s := _) (s' := _)
    (by unfold CodePair.assertString; rw [hop.2]; rfl)).trans ?_
  rw [if_neg hne, if_pos rfl]

theorem wholeItem_loop (type : Str) (hne : type ≠ str!"ENDSEC")
    (callback : Drawing Img → Rd (Drawing Img)) (k : Nat) (d : Drawing Img)
    (s : Stream) (d1 : Drawing Img) (t : Stream)
    (h : wholeItem type callback d s = (.ok d1, t)) :
    readItems type callback (k + 1) d s = readItems type callback k d1 t := by
  obtain ⟨_, t1, h1, h2⟩ := Rd.bind_inv h
  obtain ⟨c, op, hc, rfl, hop⟩ := expect_ok h1
  rw [readItems_open type hne callback k d c hc op hop]
  exact Rd.bind_ok h2

/-! ### Tables -/

/-- A table without the mark at its end. -/
def tableHead (d : Drawing Img) : Rd (Drawing Img) := do
  expect str!"TABLE"
  let pair ← Rd.next
  if pair.code ≠ 2 then Rd.fail (.expectedTableType pair.offset)
  else do
    let s ← Rd.lift pair.assertString
    match tableOf s with
    | some t => do
      let items ← Rd.withFuel t.kind.read
      Rd.lift (items.foldlM (addRead t) d)
    | none => do
      Rd.withFuel swallowTable
      return d

theorem tableHead_loc (d : Drawing Img) : Loc (tableHead d) := by
  unfold tableHead
  refine .bind (expect_loc _) fun _ => .next fun p => .ite (fun _ => .fail) fun _ =>
    .bindLift fun s => .drop ?_
  cases tableOf s with
  | none => exact .bind (.withFuel swallowTable_loc swallowTable_mono) fun _ => .pure
  | some T => exact .bind (.withFuel (tableRead_loc _) (tableRead_mono _)) fun _ => .lift

theorem wholeTable_eq : wholeTable (Img := Img) = fun d => closed (tableHead d) str!"ENDTAB" := by
  funext d
  unfold wholeTable closed tableHead readTable
  rw [bind_assoc]
  congr 1
  funext _
  rw [bind_assoc]
  congr 1
  funext p
  by_cases h : p.code ≠ 2
  · rw [if_pos h, if_pos h]; rfl
  · rw [if_neg h, if_neg h, bind_assoc]
    congr 1
    funext s
    cases tableOf s with
    | none => dsimp only; rw [bind_assoc]; congr 1
    | some T => dsimp only; rw [bind_assoc]

theorem wholeTable_passes : Passes AnyCode (wholeTable (Img := Img)) := by
  rw [wholeTable_eq]
  exact closed_passes tableHead_loc _

theorem swallow_table (content : List CodePair) (cl : CodePair)
    (hcl : cl.code = 0 ∧ cl.value = .str str!"ENDTAB")
    (hcon : ∀ p ∈ content, p.code = 0 → ∃ y, p.value = .str y ∧ y ≠ str!"TABLE" ∧
      y ≠ str!"ENDTAB" ∧ y ≠ str!"ENDSEC") (b : Stream) :
    ∀ k, content.length < k → swallowTable k (toStream content ++ some (.ok cl) :: b) =
      (.ok (), some (.ok cl) :: b) := by
  induction content with
  | nil =>
    intro k hk
    obtain ⟨k, rfl⟩ : ∃ m, k = m + 1 := ⟨k - 1, by simp at hk; omega⟩
    unfold swallowTable
    refine (Rd.bind_ok (Rd.next_cons (by omega) b)).trans ?_
    rw [if_pos hcl.1]
    refine (Rd.bind_ok (m := Rd.lift cl.assertString) (a := str!"ENDTAB") (s := b) (s' := b)
      (by unfold CodePair.assertString; rw [hcl.2]; rfl)).trans ?_
    rw [if_pos (.inr (.inr rfl))]
    rfl
  | cons p content ih =>
    intro k hk
    obtain ⟨k, rfl⟩ : ∃ m, k = m + 1 := ⟨k - 1, by simp at hk; omega⟩
    have ih' := ih (fun q hq => hcon q (by simp [hq])) k (by simpa using hk)
    by_cases h9 : p.code = 999
    · have h1 := ih (fun q hq => hcon q (by simp [hq])) (k + 1) (by simp at hk; omega)
      rw [← h1, toStream_cons, List.cons_append]
      unfold swallowTable
      rw [Rd.run_bind, Rd.run_bind]
      have : Rd.next (some (.ok p) :: (toStream content ++ some (.ok cl) :: b)) =
          Rd.next (toStream content ++ some (.ok cl) :: b) := by
        unfold Rd.next
        rw [Stream.next, if_pos (by simpa [isComment] using h9)]
      rw [this]
    · unfold swallowTable
      refine (Rd.bind_ok (Rd.next_cons h9 _)).trans ?_
      by_cases hp : p.code = 0
      · rw [if_pos hp]
        obtain ⟨y, hy, h1, h2, h3⟩ := hcon p (by simp) hp
        refine (Rd.bind_ok (m := Rd.lift p.assertString) (a := y) (s := _) (s' := _)
          (by unfold CodePair.assertString; rw [hy]; rfl)).trans ?_
        rw [if_neg (by simp [h1, h2, h3])]
        exact ih'
      · rw [if_neg hp]
        exact ih'

theorem tableOf_none (x : Str) (hx : x ∉ [str!"APPID", str!"BLOCK_RECORD", str!"DIMSTYLE",
    str!"LAYER", str!"LTYPE", str!"STYLE", str!"UCS", str!"VIEW", str!"VPORT"]) :
    tableOf x = none := by
  unfold tableOf
  rw [List.find?_eq_none]
  have h : TName.all.all (fun t => [str!"APPID", str!"BLOCK_RECORD", str!"DIMSTYLE",
    str!"LAYER", str!"LTYPE", str!"STYLE", str!"UCS", str!"VIEW", str!"VPORT"].contains
      t.kind.typeString) = true := by decide +kernel
  intro t ht he
  have h1 := List.all_eq_true.mp h t ht
  rw [beq_iff_eq] at he
  rw [he] at h1
  exact hx (List.contains_iff_mem.mp h1)

theorem wholeTable_unknown (d : Drawing Img) {U : List CodePair} (hU : UnknownTable U)
    (b : Stream) : wholeTable d (toStream U ++ b) = (.ok d, b) := by
  obtain ⟨op, nm, cl, x, content, hop, hnm, hx, hcl, hcon⟩ := hU
  rw [wholeTable_eq]
  refine closed_run (c := []) (by simp) hcl.1 hcl.2 ?_
  unfold tableHead
  have e : toStream (op :: nm :: content ++ [cl]) ++ b = toStream [] ++ some (.ok op) ::
      (some (.ok nm) :: (toStream content ++ some (.ok cl) :: b)) := by
    simp [toStream]
  rw [e]
  refine (Rd.bind_ok (expect_run _ [] (by simp) op hop.1 hop.2 _)).trans ?_
  refine (Rd.bind_ok (Rd.next_cons (by omega) _)).trans ?_
  rw [if_neg (by simp [hnm.1])]
  refine (Rd.bind_ok (m := Rd.lift nm.assertString) (a := x) (s := _) (s' := _)
    (by unfold CodePair.assertString; rw [hnm.2]; rfl)).trans ?_
  simp only [tableOf_none x hx]
  refine (Rd.bind_ok (a := ()) (s' := some (.ok cl) :: b) ?_).trans ?_
  · rw [Rd.run_withFuel]
    exact swallow_table content cl hcl hcon b _ (by simp [toStream]; omega)
  · rfl

/-- An unknown table is skipped. -/
theorem tables_same {u : Stream} {q : CodePair} {z : Stream} {U : List CodePair}
    (hU : UnknownTable U) {d d' : Drawing Img} (hfi : Fine false (u ++ some (.ok q) :: z))
    (hh : Steps wholeTable d (u ++ some (.ok q) :: z) d' (some (.ok q) :: z)) :
    Same (Rd.withFuel fun k => readItems str!"TABLE" readTable k d) (u ++ some (.ok q) :: z)
      (u ++ (toStream U ++ some (.ok q) :: z)) := by
  have hone := wholeTable_unknown d' hU (some (.ok q) :: z)
  obtain ⟨op, nm, cl, x, content, hop, hnm, hx, hcl, hcon⟩ := hU
  rw [show toStream (op :: nm :: content ++ [cl]) ++ some (.ok q) :: z = some (.ok op) ::
    (toStream (nm :: content ++ [cl]) ++ some (.ok q) :: z) by simp [toStream]] at hone ⊢
  have hloop := wholeItem_loop (Img := Img) str!"TABLE" (by decide) readTable
  refine Steps.same wholeTable_passes (f := readItems str!"TABLE" readTable)
    hloop (q := q) (q' := op) trivial trivial ?_ hh hfi fun k hc => ?_
  · simp only [List.length_append, List.length_cons, toStream_length]
    omega
  · exact skip_sim (g := wholeTable) (f := readItems str!"TABLE" readTable) hloop
      (readItems_mono _ _) hone
      (by simp only [List.length_append, List.length_cons, toStream_length]; omega) hc

end Drawing

/-! ### Header variables -/

/-- The pairs that end a variable. -/
def VarEnd (c : Int) : Prop := c = 0 ∨ c = 9

theorem headerValues_locC (name : Str) (fuel : Nat) : ∀ r,
    LocC VarEnd (headerValues Header.vars name fuel r) := by
  induction fuel with
  | zero => exact fun _ => .fail
  | succ fuel ih =>
    intro r
    unfold headerValues
    refine .next? (by unfold VarEnd; omega) .pure (fun p => .ite (fun _ => .back) fun _ =>
      .bindLift fun _ => .drop (ih _)) ?_
    intro p p' hp hp'
    dsimp only
    unfold VarEnd at hp hp'
    rw [if_pos hp, if_pos hp']
    exact .back

theorem oneVariable_locC (h : Header) : LocC VarEnd (oneVariable h) := by
  unfold oneVariable
  exact .nextDrop (by unfold VarEnd; omega) fun p => .ite (fun _ => .bind .lift fun _ =>
    .withFuel (fun _ => headerValues_locC _ _ _) (headerValues_mono _ _)) fun _ => .fail

theorem oneVariable_inv {h h' : Header} {s t : Stream} (e : oneVariable h s = (.ok h', t)) :
    ∃ (c : List CodePair) (p : CodePair) (n : Str) (y : Stream), (∀ q ∈ c, q.code = 999) ∧
      p.code = 9 ∧ p.assertString = .ok n ∧ s = toStream c ++ some (.ok p) :: y ∧
      Rd.withFuel (fun k => headerValues Header.vars n k h) y = (.ok h', t) := by
  obtain ⟨p, y, h1, h2⟩ := Rd.bind_inv e
  obtain ⟨c, hc, hs, _⟩ := Rd.next_ok h1
  by_cases hp : p.code = 9
  swap
  · rw [if_neg hp] at h2; cases h2
  rw [if_pos hp] at h2
  obtain ⟨n, y', h3, h4⟩ := Rd.bind_inv h2
  unfold Rd.lift at h3
  obtain ⟨hv, hy⟩ := Prod.mk.inj h3
  subst hy
  exact ⟨c, p, n, y, hc, hp, hv, hs, h4⟩

theorem oneVariable_passes : Passes VarEnd oneVariable := by
  refine ⟨fun st s st' t hs h => ?_, fun st st' u v q z q' z' hfi hq hq' hlen h =>
    (oneVariable_locC st).pass hfi hq hq' hlen h⟩
  obtain ⟨c, p, n, y, _, _, _, rfl, h1⟩ := oneVariable_inv h
  have hy : y <:+ toStream c ++ some (.ok p) :: y :=
    (List.suffix_cons _ _).trans (List.suffix_append _ _)
  have h3 := (Loc.withFuel (fun k => headerValues_loc n k st) (headerValues_mono n st)).suffix y
    (hs.suffix hy)
  rw [h1] at h3
  refine ⟨h3.trans hy, ?_⟩
  have := h3.length_le
  dsimp only at this
  simp only [List.length_append, List.length_cons]
  omega

theorem oneVariable_loop (k : Nat) (h : Header) (s : Stream) (h1 : Header) (t : Stream)
    (e : oneVariable h s = (.ok h1, t)) :
    headerLoop Header.vars (k + 1) h s = headerLoop Header.vars k h1 t := by
  obtain ⟨c, p, n, y, hc, hp, hv, rfl, h2⟩ := oneVariable_inv e
  conv => lhs; unfold headerLoop
  refine (Rd.bind_ok (next?_comments c hc p (by omega) _)).trans ?_
  dsimp only
  rw [if_neg (by omega), if_pos hp]
  refine (Rd.bind_ok (m := Rd.lift p.assertString) (a := n) (s := _) (s' := _)
    (by unfold Rd.lift; rw [hv])).trans ?_
  exact Rd.bind_ok h2

theorem findVar_none (x : Str) (hx : ∀ v ∈ Header.vars, v.name ≠ x) : findVar Header.vars x = none := by
  unfold findVar
  rw [List.find?_eq_none]
  intro v hv he
  exact hx v hv (by simpa using he)

theorem values_unknown (x : Str) (hx : ∀ v ∈ Header.vars, v.name ≠ x) (content : List CodePair)
    (hcon : ∀ p ∈ content, p.code ≠ 0 ∧ p.code ≠ 9) (q : CodePair) (hq : VarEnd q.code)
    (z : Stream) (h : Header) : ∀ k, content.length < k →
    headerValues Header.vars x k h (toStream content ++ some (.ok q) :: z) =
      (.ok h, some (.ok q) :: z) := by
  induction content with
  | nil =>
    intro k hk
    obtain ⟨k, rfl⟩ : ∃ m, k = m + 1 := ⟨k - 1, by simp at hk; omega⟩
    unfold headerValues
    refine (Rd.bind_ok (Rd.next?_cons (by unfold VarEnd at hq; omega) z)).trans ?_
    dsimp only
    unfold VarEnd at hq
    rw [if_pos hq]
    rfl
  | cons p content ih =>
    intro k hk
    obtain ⟨k, rfl⟩ : ∃ m, k = m + 1 := ⟨k - 1, by simp at hk; omega⟩
    have ih' := ih fun p hp => hcon p (by simp [hp])
    by_cases h9 : p.code = 999
    · rw [← ih' (k + 1) (by simp at hk; omega), toStream_cons, List.cons_append]
      unfold headerValues
      rw [Rd.run_bind, Rd.run_bind]
      have : Rd.next? (some (.ok p) :: (toStream content ++ some (.ok q) :: z)) =
          Rd.next? (toStream content ++ some (.ok q) :: z) := by
        unfold Rd.next?
        rw [Stream.next, if_pos (by simpa [isComment] using h9)]
      rw [this]
    · unfold headerValues
      refine (Rd.bind_ok (Rd.next?_cons h9 _)).trans ?_
      dsimp only
      have := hcon p (by simp)
      rw [if_neg (by omega)]
      refine (Rd.bind_ok (m := Rd.lift (setHeaderValue Header.vars x p h)) (a := h) (s := _) (s' := _)
        (by unfold setHeaderValue; rw [findVar_none x hx]; rfl)).trans ?_
      exact ih' k (by simpa using hk)

theorem oneVariable_unknown (h : Header) {U : List CodePair} (hU : UnknownVariable U) (q : CodePair)
    (hq : VarEnd q.code) (z : Stream) :
    oneVariable h (toStream U ++ some (.ok q) :: z) = (.ok h, some (.ok q) :: z) := by
  obtain ⟨op, x, content, hop, hx, hcon⟩ := hU
  rw [toStream_cons, List.cons_append]
  unfold oneVariable
  refine (Rd.bind_ok (Rd.next_cons (by omega) _)).trans ?_
  rw [if_pos hop.1]
  refine (Rd.bind_ok (m := Rd.lift op.assertString) (a := x) (s := _) (s' := _)
    (by unfold CodePair.assertString; rw [hop.2]; rfl)).trans ?_
  rw [Rd.run_withFuel]
  exact values_unknown x hx content hcon q hq z h _ (by simp [toStream]; omega)

/-- An unknown variable is skipped. -/
theorem header_same {u : Stream} {q : CodePair} (hq : VarEnd q.code) {z : Stream}
    {U : List CodePair} (hU : UnknownVariable U) {h h' : Header}
    (hfi : Fine false (u ++ some (.ok q) :: z))
    (hh : Steps oneVariable h (u ++ some (.ok q) :: z) h' (some (.ok q) :: z)) :
    Same (Header.read h) (u ++ some (.ok q) :: z) (u ++ (toStream U ++ some (.ok q) :: z)) := by
  have hone := oneVariable_unknown h' hU q hq z
  obtain ⟨op, x, content, hop, hx, hcon⟩ := hU
  rw [toStream_cons, List.cons_append] at hone ⊢
  refine Steps.same oneVariable_passes (f := headerLoop Header.vars)
    oneVariable_loop (q := q) (q' := op) hq (.inr hop.1) ?_ hh hfi fun k hc => ?_
  · simp only [List.length_append, List.length_cons, toStream_length]
    omega
  · exact skip_sim (g := oneVariable) (f := headerLoop Header.vars) oneVariable_loop
      headerLoop_mono hone
      (by simp only [List.length_append, List.length_cons, toStream_length]; omega) hc

end Dxf
