import Verif.Spec.Saving

/-! When writing succeeds. -/

namespace Dxf

theorem mapM_ok_iff {α β : Type} (f : α → Except DxfErr β) (l : List α) :
    (∃ ys, l.mapM f = .ok ys) ↔ ∀ x ∈ l, ∃ y, f x = .ok y := by
  induction l with
  | nil => exact ⟨fun _ _ h => (nomatch h), fun _ => ⟨[], rfl⟩⟩
  | cons a l ih =>
    rw [List.mapM_cons]
    constructor
    · rintro ⟨ys, h⟩
      cases ha : f a with
      | error e => rw [ha] at h; cases h
      | ok b =>
        rw [ha] at h
        cases hl : l.mapM f with
        | error e => simp only [bind, Except.bind, hl] at h; cases h
        | ok bs =>
          intro x hx
          rcases List.mem_cons.mp hx with rfl | hx
          · exact ⟨b, ha⟩
          · exact ih.mp ⟨bs, hl⟩ x hx
    · intro h
      obtain ⟨b, hb⟩ := h a List.mem_cons_self
      obtain ⟨bs, hbs⟩ := ih.mpr fun x hx => h x (List.mem_cons_of_mem _ hx)
      exact ⟨b :: bs, by rw [hb, hbs]; rfl⟩

/-- The only errors. -/
theorem mapM_error {α β : Type} {f : α → Except DxfErr β} {E : DxfErr → Prop} {l : List α}
    (h : ∀ x ∈ l, ∀ e, f x = .error e → E e) : ∀ e, l.mapM f = .error e → E e := by
  induction l with
  | nil => intro e h; cases h
  | cons a l ih =>
    intro e he
    rw [List.mapM_cons] at he
    cases ha : f a with
    | error e' =>
      rw [ha] at he
      cases he
      exact h a List.mem_cons_self _ ha
    | ok b =>
      rw [ha] at he
      cases hl : l.mapM f with
      | error e' =>
        simp only [bind, Except.bind, hl] at he
        cases he
        exact ih (fun x hx => h x (List.mem_cons_of_mem _ hx)) _ hl
      | ok bs => simp only [bind, Except.bind, hl] at he; cases he

namespace DataTable

variable (t : DataTable)

theorem cell_ok {row col : Nat} {c : Option DataTableValue} :
    t.cell row col = .ok c ↔ ∃ cells, t.values[row]? = some cells ∧ cells[col]? = some c := by
  unfold cell
  cases t.values[row]? with
  | none => simp
  | some cells =>
    dsimp only
    cases hc : cells[col]? with
    | none => simp [hc]
    | some c' => simp [hc]

theorem cell_hasCell {row col : Nat} : (∃ c, t.cell row col = .ok c) ↔ t.HasCell row col := by
  constructor
  · rintro ⟨c, h⟩
    obtain ⟨cells, h1, h2⟩ := (t.cell_ok).mp h
    exact ⟨cells, h1, (List.getElem?_eq_some_iff.mp h2).1⟩
  · rintro ⟨cells, h1, h2⟩
    exact ⟨cells[col], (t.cell_ok).mpr ⟨cells, h1, List.getElem?_eq_getElem h2⟩⟩

theorem cell_error {row col : Nat} {e : DxfErr} (h : t.cell row col = .error e) : e = .panic := by
  unfold cell at h
  split at h
  · cases h; rfl
  · split at h <;> cases h
    rfl

theorem columnPairs_ok (col : Nat) : (∃ ps, t.columnPairs col = .ok ps) ↔
    t.HasCell 0 col ∧ ∀ cells v, t.values[0]? = some cells → cells[col]? = some (some v) →
      col < t.columnNames.length ∧ ∀ row < t.rowCount, t.HasCell row col := by
  unfold columnPairs
  cases hc : t.cell 0 col with
  | error e =>
    refine ⟨fun ⟨_, h⟩ => (by cases h), fun h => ?_⟩
    obtain ⟨c, h⟩ := (t.cell_hasCell).mpr h.1
    rw [hc] at h
    cases h
  | ok c =>
    obtain ⟨cells, h1, h2⟩ := (t.cell_ok).mp hc
    have h0 := (t.cell_hasCell).mp ⟨c, hc⟩
    cases c with
    | none =>
      refine ⟨fun _ => ⟨h0, fun cells' v h1' h2' => ?_⟩, fun _ => ⟨[], rfl⟩⟩
      rw [h1] at h1'
      cases h1'
      rw [h2] at h2'
      cases h2'
    | some x =>
      have hm := mapM_ok_iff (fun row => t.cell row col) (List.range t.rowCount)
      simp only [List.mem_range, cell_hasCell] at hm
      cases hn : t.columnNames[col]? with
      | none =>
        refine ⟨fun ⟨_, h⟩ => (by cases h), fun h => ?_⟩
        have := (h.2 cells x h1 h2).1
        rw [List.getElem?_eq_getElem this] at hn
        cases hn
      | some name =>
        constructor
        · rintro ⟨ps, h⟩
          refine ⟨h0, fun _ _ _ _ => ⟨(List.getElem?_eq_some_iff.mp hn).1, ?_⟩⟩
          apply hm.mp
          cases hx : (List.range t.rowCount).mapM fun row => t.cell row col with
          | ok ys => exact ⟨ys, rfl⟩
          | error e =>
            simp only [bind, Except.bind, hn, hx] at h
            cases h
        · intro h
          obtain ⟨ys, hy⟩ := hm.mpr (h.2 cells x h1 h2).2
          simp only [bind, Except.bind, hn, hy]
          exact ⟨_, rfl⟩

theorem columnPairs_error {col : Nat} {e : DxfErr} (h : t.columnPairs col = .error e) :
    e = .panic := by
  unfold columnPairs at h
  cases hc : t.cell 0 col with
  | error e' =>
    rw [hc] at h
    cases h
    exact t.cell_error hc
  | ok c =>
    rw [hc] at h
    cases c with
    | none => cases h
    | some x =>
      cases hn : t.columnNames[col]? with
      | none => simp only [bind, Except.bind, hn] at h; cases h; rfl
      | some name =>
        cases hx : (List.range t.rowCount).mapM fun row => t.cell row col with
        | ok ys => simp only [bind, Except.bind, hn, hx] at h; cases h
        | error e' =>
          simp only [bind, Except.bind, hn, hx] at h
          cases h
          exact mapM_error (E := fun e => e = .panic) (fun row _ e he => t.cell_error he) _ hx

theorem pairs_ok : (∃ ps, t.pairs = .ok ps) ↔ t.Complete := by
  have hm := mapM_ok_iff t.columnPairs (List.range t.columnCount)
  simp only [List.mem_range, columnPairs_ok] at hm
  unfold Complete
  rw [← hm]
  unfold pairs
  cases hx : (List.range t.columnCount).mapM t.columnPairs with
  | ok ys => exact ⟨fun _ => ⟨ys, rfl⟩, fun _ => ⟨_, rfl⟩⟩
  | error e => exact ⟨fun ⟨_, h⟩ => (by cases h), fun ⟨_, h⟩ => by cases h⟩

theorem pairs_error {e : DxfErr} (h : t.pairs = .error e) : e = .panic := by
  unfold pairs at h
  cases hx : (List.range t.columnCount).mapM t.columnPairs with
  | ok ys => rw [hx] at h; cases h
  | error e' =>
    rw [hx] at h
    cases h
    exact mapM_error (E := fun e => e = .panic) (fun row _ e he => t.columnPairs_error he) _ hx

end DataTable

theorem objectTail_ok (o : Object) :
    (∃ ps, o.tail = .ok ps) ↔ (o.kind = .dataTable → o.extra.table.Complete) := by
  obtain ⟨k, e, x⟩ := o
  cases k
  case dataTable => exact (x.table.pairs_ok).trans ⟨fun h _ => h, fun h => h rfl⟩
  all_goals exact ⟨fun _ h => (nomatch h), fun _ => ⟨_, rfl⟩⟩

theorem objectTail_error {o : Object} {e : DxfErr} (h : o.tail = .error e) : e = .panic := by
  obtain ⟨k, n, x⟩ := o
  cases k
  case dataTable => exact x.table.pairs_error h
  all_goals cases h

theorem objectPairs_ok (v : Version) (o : Object) : (∃ ps, o.pairs v = .ok ps) ↔
    (o.kind = .dataTable → o.kind.supported v = true → o.extra.table.Complete) := by
  unfold Object.pairs
  by_cases hs : o.kind.supported v = true
  · rw [if_pos hs]
    cases ht : o.tail with
    | ok ps => exact ⟨fun _ h _ => (objectTail_ok o).mp ⟨ps, ht⟩ h, fun _ => ⟨_, rfl⟩⟩
    | error e =>
      refine ⟨fun ⟨_, h⟩ => (by cases h), fun h => ?_⟩
      obtain ⟨ps, h⟩ := (objectTail_ok o).mpr fun hk => h hk hs
      rw [ht] at h
      cases h
  · rw [if_neg hs]
    exact ⟨fun _ _ h => absurd h hs, fun _ => ⟨_, rfl⟩⟩

theorem objectPairs_error {v : Version} {o : Object} {e : DxfErr} (h : o.pairs v = .error e) :
    e = .panic := by
  unfold Object.pairs at h
  split at h
  · cases ht : o.tail with
    | ok ps => rw [ht] at h; cases h
    | error e' =>
      rw [ht] at h
      cases h
      exact objectTail_error ht
  · cases h

end Dxf
