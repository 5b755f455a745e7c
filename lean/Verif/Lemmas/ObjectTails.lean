import Verif.Lemmas.Objects

/-! Reading the lists of objects. -/

namespace Dxf

theorem foldPairs_cat {ds : List Decl} {arms : List (Arm ds)} {a b : List CodePair}
    {r r1 r2 : Rec ds} (h1 : foldPairs arms r a = .ok r1) (h2 : foldPairs arms r1 b = .ok r2) :
    foldPairs arms r (a ++ b) = .ok r2 := by
  rw [foldPairs_append, h1]
  exact h2

/-! ### Dictionaries -/

theorem Str.lt_irrefl (s : Str) : Str.lt s s = false := by
  induction s with
  | nil => rfl
  | cons a as ih => simp [Str.lt, ih]

theorem Str.lt_asymm {s t : Str} (h : Str.lt s t = true) : Str.lt t s = false := by
  induction s generalizing t with
  | nil => cases t <;> rfl
  | cons a as ih =>
    cases t with
    | nil => cases h
    | cons b bs =>
      simp only [Str.lt, Bool.or_eq_true, Bool.and_eq_true, decide_eq_true_eq, beq_iff_eq,
        Bool.or_eq_false_iff, decide_eq_false_iff_not, Bool.and_eq_false_iff] at h ⊢
      rcases h with h | ⟨h1, h2⟩
      · refine ⟨by omega, .inl ?_⟩
        rw [beq_eq_false_iff_ne]
        omega
      · exact ⟨by omega, .inr (ih h2)⟩

theorem Dict.insert_last (key : Str) (h : Handle) (d : Dict)
    (hd : ∀ x ∈ d, Str.lt x.1 key = true) : d.insert key h = d ++ [(key, h)] := by
  induction d with
  | nil => rfl
  | cons x xs ih =>
    obtain ⟨k, y⟩ := x
    have h1 := hd (k, y) List.mem_cons_self
    simp only at h1
    rw [Dict.insert, if_neg, if_neg, ih fun x hx => hd x (List.mem_cons_of_mem _ hx)]
    · rfl
    · rw [Str.lt_asymm h1]; simp
    · rintro rfl
      rw [Str.lt_irrefl] at h1
      cases h1

namespace OName

theorem runs_dict {k : OName} (hk : k = .dictionary ∨ k = .dictionaryWithDefault) (m : OMode)
    (e : Entry k.decls) (code : Int) (hcode : code = 350 ∨ code = 360) (d : Dict) (w : OWork)
    (hd : (w.extra.dict ++ d).Pairwise fun a b => Str.lt a.1 b.1 = true) (rest : Stream) :
    ∃ name, Runs k.kind.eof k.step (m, e, w) (d.pairs code)
      (m, e, { w with
        lastName := name
        extra := { w.extra with dict := w.extra.dict ++ d } }) rest := by
  have hnext : ∀ p, k.kind.next m p = m := by
    rcases hk with rfl | rfl <;> exact fun _ => rfl
  have hodd : ∀ p w, k.odd m p w = w.dictionary p := by
    rcases hk with rfl | rfl <;> exact fun _ _ => rfl
  have hc0 : code ≠ 0 := by omega
  have hc9 : code ≠ 999 := by omega
  have hc3 : code ≠ 3 := by omega
  clear hk
  induction d generalizing w with
  | nil => exact ⟨w.lastName, by simpa [Dict.pairs] using Runs.nil (m, e, w) rest⟩
  | cons x xs ih =>
    obtain ⟨key, h⟩ := x
    have hlt : ∀ y ∈ w.extra.dict, Str.lt y.1 key = true := fun y hy =>
      (List.pairwise_append.mp hd).2.2 y hy (key, h) List.mem_cons_self
    obtain ⟨name, ih⟩ := ih { w with
      lastName := key
      extra := { w.extra with dict := w.extra.dict ++ [(key, h)] } } (by simpa using hd)
    refine ⟨name, ?_⟩
    have h1 : ∀ rest, Runs k.kind.eof k.step (m, e, w) [.newStr 3 key] (m, e, { w with lastName := key })
        rest := by
      intro rest
      refine Runs.one (by simp [CodePair.newStr]) (by simp [CodePair.newStr]) ?_
      rw [step]
      simp only [hodd, OWork.dictionary, CodePair.newStr, if_true]
      simp [Rd.run_bind, hnext, CodePair.assertString]
    have h2 : ∀ rest, Runs k.kind.eof k.step (m, e, { w with lastName := key })
        [.newStr code h.asString] (m, e, { w with
          lastName := key
          extra := { w.extra with dict := w.extra.dict ++ [(key, h)] } }) rest := by
      intro rest
      refine Runs.one (by simpa [CodePair.newStr] using hc0) (by simpa [CodePair.newStr] using hc9) ?_
      rw [step]
      have hh := asHandle_newStr code h
      simp only [CodePair.newStr] at hh
      simp only [hodd, OWork.dictionary, CodePair.newStr, hc3, if_false, hcode, if_true]
      simp [Rd.run_bind, hnext, hh, Dict.insert_last key h _ hlt]
    have := Runs.trans (h1 _) (Runs.trans (h2 _) ih)
    simpa [Dict.pairs] using this

/-! ### Data tables without columns -/

theorem usize_ofNat {n : Nat} (h : n < 2 ^ 31) : DataTable.usize (BitVec.ofNat 32 n) = n := by
  unfold DataTable.usize
  rw [BitVec.signExtend_eq_setWidth_of_msb_false]
  · simp only [BitVec.toNat_setWidth, BitVec.toNat_ofNat]
    omega
  · rw [BitVec.msb_eq_false_iff_two_mul_lt]
    simp only [BitVec.toNat_ofNat]
    omega

theorem runs_table (m : OMode) (e : Entry OName.dataTable.decls) (t : DataTable)
    (hc : t.columnCount = 0) (hr : t.rowCount < 2 ^ 31) (rest : Stream) :
    ∃ tail, t.pairs = .ok tail ∧ Runs OName.dataTable.kind.eof OName.dataTable.step (m, e, {}) tail
      (m, e, {
        gotCols := true
        gotRows := true
        extra := { table := {
          rowCount := t.rowCount
          name := t.name
          values := List.replicate t.rowCount [] } } }) rest := by
  refine ⟨_, by rw [DataTable.pairs, hc]; rfl, ?_⟩
  refine Runs.trans (a := [_]) (Runs.one (by decide) (by decide) (st' := (m, e, {
    gotCols := true })) rfl) ?_
  refine Runs.trans (a := [_]) (Runs.one (by simp [CodePair.newI32]) (by simp [CodePair.newI32]) (st' := (m, e, {
    gotCols := true
    gotRows := true
    extra := { table := {
      rowCount := t.rowCount
      values := List.replicate t.rowCount [] } } })) ?_) ?_
  · have := usize_ofNat hr
    simp [step, odd, OWork.dataTable, Rd.run_bind, CodePair.newI32, CodePair.assertI32, kind, this,
      OWork.createTable]
  · exact Runs.one (by simp [CodePair.newStr]) (by simp [CodePair.newStr]) rfl

/-! ### Points and matrices of spatial filters -/

theorem editLast_append (w : OWork) (ps : List Point) (q : Point) (f : Point → Point)
    (h : w.extra.points = ps ++ [q]) :
    w.editLast f = .ok { w with extra := { w.extra with points := ps ++ [f q] } } := by
  unfold OWork.editLast
  simp [h]

theorem step_y (m : OMode) (e : Entry OName.spatialFilter.decls) (w : OWork) (ps : List Point)
    (q : Point) (h : w.extra.points = ps ++ [q]) (y : F64) (s : Stream) :
    OName.spatialFilter.step (.newF64 20 y) (m, e, w) s =
      (.ok (m, e, { w with extra := { w.extra with points := ps ++ [{ q with y := y }] } }), s) := by
  change (Rd.lift (w.editLast fun p => { p with y := y }) >>= fun w => pure (m, e, w)) s = _
  rw [editLast_append w ps q _ h]
  rfl

theorem step_z (m : OMode) (e : Entry OName.spatialFilter.decls) (w : OWork) (ps : List Point)
    (q : Point) (h : w.extra.points = ps ++ [q]) (z : F64) (s : Stream) :
    OName.spatialFilter.step (.newF64 30 z) (m, e, w) s =
      (.ok (m, e, { w with extra := { w.extra with points := ps ++ [{ q with z := z }] } }), s) := by
  change (Rd.lift (w.editLast fun p => { p with z := z }) >>= fun w => pure (m, e, w)) s = _
  rw [editLast_append w ps q _ h]
  rfl

theorem runs_points (m : OMode) (e : Entry OName.spatialFilter.decls) (ps : List Point) (w : OWork)
    (rest : Stream) :
    Runs OName.spatialFilter.kind.eof OName.spatialFilter.step (m, e, w)
      (ps.flatMap fun p => [.newF64 10 p.x, .newF64 20 p.y, .newF64 30 p.z])
      (m, e, { w with extra := { w.extra with points := w.extra.points ++ ps } }) rest := by
  induction ps generalizing w with
  | nil => simpa using Runs.nil (m, e, w) rest
  | cons p ps ih =>
    have ih := ih { w with extra := { w.extra with points := w.extra.points ++ [p] } }
    have h1 : ∀ rest, Runs OName.spatialFilter.kind.eof OName.spatialFilter.step (m, e, w)
        [.newF64 10 p.x] (m, e, { w with extra := { w.extra with
          points := w.extra.points ++ [⟨p.x, .zero, .zero⟩] } }) rest := fun rest =>
      Runs.one (by simp [CodePair.newF64]) (by simp [CodePair.newF64]) rfl
    have h2 : ∀ rest, Runs OName.spatialFilter.kind.eof OName.spatialFilter.step
        (m, e, { w with extra := { w.extra with
          points := w.extra.points ++ [⟨p.x, .zero, .zero⟩] } })
        [.newF64 20 p.y] (m, e, { w with extra := { w.extra with
          points := w.extra.points ++ [⟨p.x, p.y, .zero⟩] } }) rest := fun rest => by
      refine Runs.one (by simp [CodePair.newF64]) (by simp [CodePair.newF64]) ?_
      exact step_y m e _ w.extra.points ⟨p.x, .zero, .zero⟩ rfl p.y rest
    have h3 : ∀ rest, Runs OName.spatialFilter.kind.eof OName.spatialFilter.step
        (m, e, { w with extra := { w.extra with
          points := w.extra.points ++ [⟨p.x, p.y, .zero⟩] } })
        [.newF64 30 p.z] (m, e, { w with extra := { w.extra with
          points := w.extra.points ++ [p] } }) rest := fun rest => by
      refine Runs.one (by simp [CodePair.newF64]) (by simp [CodePair.newF64]) ?_
      exact step_z m e _ w.extra.points ⟨p.x, p.y, .zero⟩ rfl p.z rest
    have := Runs.trans (h1 _) (Runs.trans (h2 _) (Runs.trans (h3 _) ih))
    simpa using this

/-- Reading matrix values one by one. -/
theorem runs_matrix (m : OMode) (hm : m.a = true) (e : Entry OName.spatialFilter.decls)
    (fs : List F64) (w : OWork) (rest : Stream) :
    Runs OName.spatialFilter.kind.eof OName.spatialFilter.step (m, e, w)
      (fs.map fun f => .newF64 40 f) (m, e, fs.foldl OWork.matrixValue w) rest := by
  induction fs generalizing w with
  | nil => exact Runs.nil (m, e, w) rest
  | cons f fs ih =>
    refine Runs.trans (a := [_]) (Runs.one (by simp [CodePair.newF64]) (by simp [CodePair.newF64])
      (st' := (m, e, w.matrixValue f)) ?_) (ih _)
    obtain ⟨a, s⟩ := m
    simp only at hm
    subst hm
    rfl

theorem matrix_fold (a b : Matrix) (w : OWork) (hw : w.matrix = []) (hg : w.gotInverse = false) :
    (a.values4x3 ++ b.values4x3).foldl OWork.matrixValue w = { w with
      gotInverse := true
      extra := { w.extra with
        inverse := a.filtered
        transform := b.filtered } } := by
  simp only [Matrix.values4x3, List.cons_append, List.nil_append, List.foldl_cons, List.foldl_nil]
  simp [OWork.matrixValue, Matrix.from4x3, hw, hg]
  exact ⟨rfl, rfl⟩

/-! ### Meshes and faces -/

abbrev GeoRec := Rec OName.geoData.decls

theorem geo_mesh (ms : List (Point × Point)) (r : GeoRec) :
    ∃ r' : GeoRec, foldPairs Obj.geoDataArms r (ms.flatMap fun (s, d) => meshPairs s d) = .ok r' ∧
      (r' 23 : List F64) = List.append (r 23) (ms.map fun x => x.1.x) ∧
      (r' 24 : List F64) = List.append (r 24) (ms.map fun x => x.1.y) ∧
      (r' 25 : List F64) = List.append (r 25) (ms.map fun x => x.2.x) ∧
      (r' 26 : List F64) = List.append (r 26) (ms.map fun x => x.2.y) ∧
      ∀ j, j ∉ [23, 24, 25, 26] → r' j = r j := by
  induction ms generalizing r with
  | nil =>
    refine ⟨r, rfl, ?_, ?_, ?_, ?_, fun _ _ => rfl⟩ <;> exact (List.append_nil _).symm
  | cons x ms ih =>
    obtain ⟨s, d⟩ := x
    let r4 : GeoRec := (((r.set 23 (List.append (r 23) [s.x] : List F64)).set 24
      (List.append (r 24) [s.y] : List F64)).set 25 (List.append (r 25) [d.x] : List F64)).set 26
      (List.append (r 26) [d.y] : List F64)
    have h4 : foldPairs Obj.geoDataArms r (meshPairs s d) = .ok r4 := rfl
    obtain ⟨r', h', h23, h24, h25, h26, hj⟩ := ih r4
    refine ⟨r', ?_, ?_, ?_, ?_, ?_, fun j hjn => ?_⟩
    · exact foldPairs_cat h4 h'
    · exact h23.trans (List.append_assoc (r 23 : List F64) [s.x] _)
    · exact h24.trans (List.append_assoc (r 24 : List F64) [s.y] _)
    · exact h25.trans (List.append_assoc (r 25 : List F64) [d.x] _)
    · exact h26.trans (List.append_assoc (r 26 : List F64) [d.y] _)
    · rw [hj j hjn]
      simp only [List.mem_cons, List.not_mem_nil, or_false, not_or] at hjn
      exact (Rec.set_ne _ _ hjn.2.2.2).trans ((Rec.set_ne _ _ hjn.2.2.1).trans
        ((Rec.set_ne _ _ hjn.2.1).trans (Rec.set_ne r _ hjn.1)))

theorem geo_faces (fs : List Point) (r : GeoRec) :
    ∃ r' : GeoRec, foldPairs Obj.geoDataArms r (fs.flatMap facePairs) = .ok r' ∧
      (r' 28 : List F64) = List.append (r 28) (fs.map fun f => F64.ofInt f.x.asI32.toInt) ∧
      (r' 29 : List F64) = List.append (r 29) (fs.map fun f => F64.ofInt f.y.asI32.toInt) ∧
      (r' 30 : List F64) = List.append (r 30) (fs.map fun f => F64.ofInt f.z.asI32.toInt) ∧
      ∀ j, j ∉ [28, 29, 30] → r' j = r j := by
  induction fs generalizing r with
  | nil =>
    refine ⟨r, rfl, ?_, ?_, ?_, fun _ _ => rfl⟩ <;> exact (List.append_nil _).symm
  | cons f fs ih =>
    let x : F64 := F64.ofInt f.x.asI32.toInt
    let y : F64 := F64.ofInt f.y.asI32.toInt
    let z : F64 := F64.ofInt f.z.asI32.toInt
    let r4 : GeoRec := ((r.set 28 (List.append (r 28) [x] : List F64)).set 29
      (List.append (r 29) [y] : List F64)).set 30 (List.append (r 30) [z] : List F64)
    have h4 : foldPairs Obj.geoDataArms r (facePairs f) = .ok r4 := rfl
    obtain ⟨r', h', h28, h29, h30, hj⟩ := ih r4
    refine ⟨r', ?_, ?_, ?_, ?_, fun j hjn => ?_⟩
    · exact foldPairs_cat h4 h'
    · exact h28.trans (List.append_assoc (r 28 : List F64) [x] _)
    · exact h29.trans (List.append_assoc (r 29 : List F64) [y] _)
    · exact h30.trans (List.append_assoc (r 30 : List F64) [z] _)
    · rw [hj j hjn]
      simp only [List.mem_cons, List.not_mem_nil, or_false, not_or] at hjn
      exact (Rec.set_ne _ _ hjn.2.2).trans ((Rec.set_ne _ _ hjn.2.1).trans
        (Rec.set_ne r _ hjn.1))

/-! ### Elements of multiline styles -/

theorem mLine_elements (es : List MElement) (m : OMode) (hm : m.a = true)
    (r : Rec OName.mLineStyle.decls) :
    ∃ r' : Rec OName.mLineStyle.decls, foldPairs (Obj.mLineStyleArms m) r
        (es.flatMap MElement.pairs) = .ok r' ∧
      ∀ j, j ∉ [9, 10, 11] → r' j = r j := by
  obtain ⟨a, s⟩ := m
  simp only at hm
  subst hm
  induction es generalizing r with
  | nil => exact ⟨r, rfl, fun _ _ => rfl⟩
  | cons e es ih =>
    let r4 : Rec OName.mLineStyle.decls := ((r.set 9 (List.append (r 9) [e.offset] : List F64)).set 10
      (List.append (r 10) [e.color] : List I16)).set 11 (List.append (r 11) [e.lineType] : List Str)
    have h4 : foldPairs (Obj.mLineStyleArms ⟨true, s⟩) r e.pairs = .ok r4 := rfl
    obtain ⟨r', h', hj⟩ := ih r4
    refine ⟨r', ?_, fun j hjn => ?_⟩
    · exact foldPairs_cat h4 h'
    · rw [hj j hjn]
      simp only [List.mem_cons, List.not_mem_nil, or_false, not_or] at hjn
      exact (Rec.set_ne _ _ hjn.2.2).trans ((Rec.set_ne _ _ hjn.2.1).trans
        (Rec.set_ne r _ hjn.1))

/-! ### Sections -/

theorem geometry_emit (g : Geometry) : emitAll geometryCmds .r2018 g =
    [.newI32 90 (g 0), .newI32 91 (g 1), .newI32 92 (g 2), .newI16 63 (g 3), .newStr 8 (g 4),
      .newStr 6 (g 5), .newF64 40 (g 6), .newStr 1 (g 7), .newI16 370 (g 8), .newI16 70 (g 9),
      .newI16 71 (g 10), .newI16 72 (g 11), .newStr 2 (g 12), .newF64 41 (g 13),
      .newF64 42 (g 14), .newF64 43 (g 15)] := rfl

/-- Reading all fields of a geometry. -/
theorem geometry_fold (g g0 : Geometry) :
    foldPairs geometryArms g0 (emitAll geometryCmds .r2018 g) = .ok g := by
  have h : foldPairs geometryArms g0 (emitAll geometryCmds .r2018 g) =
      .ok ((((((((((((((((g0.set 0 (g 0)).set 1 (g 1)).set 2 (g 2)).set 3 (g 3)).set 4 (g 4)).set 5
        (g 5)).set 6 (g 6)).set 7 (g 7)).set 8 (g 8)).set 9 (g 9)).set 10 (g 10)).set 11
        (g 11)).set 12 (g 12)).set 13 (g 13)).set 14 (g 14)).set 15 (g 15)) := rfl
  rw [h]
  congr 1
  funext i
  rcases (by omega : i = 0 ∨ i = 1 ∨ i = 2 ∨ i = 3 ∨ i = 4 ∨ i = 5 ∨ i = 6 ∨ i = 7 ∨ i = 8 ∨
    i = 9 ∨ i = 10 ∨ i = 11 ∨ i = 12 ∨ i = 13 ∨ i = 14 ∨ i = 15 ∨ 16 ≤ i) with
    rfl | rfl | rfl | rfl | rfl | rfl | rfl | rfl | rfl | rfl | rfl | rfl | rfl | rfl | rfl | rfl | h
  all_goals first | rfl | exact den_beyond h _ _

theorem geometry_loop (ps : List CodePair)
    (hp : ∀ p ∈ ps, p.code ≠ 3 ∧ p.code ≠ 999 ∧ (findArm geometryArms p.code).isSome = true)
    (g g' : Geometry) (h : foldPairs geometryArms g ps = .ok g') (q : CodePair) (hq : q.code = 3)
    (rest : Stream) (fuel : Nat) (hf : ps.length < fuel) :
    Geometry.loop fuel g (toStream ps ++ some (.ok q) :: rest) = (.ok g', rest) := by
  induction ps generalizing g fuel with
  | nil =>
    obtain ⟨fuel, rfl⟩ : ∃ f, fuel = f + 1 := ⟨fuel - 1, by omega⟩
    simp only [foldPairs, Except.ok.injEq] at h
    subst h
    rw [Geometry.loop, toStream_nil, List.nil_append, Rd.bind_ok (Rd.next?_cons (by omega) _)]
    simp only [hq, if_true]
    rfl
  | cons p ps ih =>
    obtain ⟨fuel, rfl⟩ : ∃ f, fuel = f + 1 := ⟨fuel - 1, by omega⟩
    obtain ⟨h3, h9, hs⟩ := hp p List.mem_cons_self
    rw [foldPairs] at h
    cases h1 : applyPair geometryArms g p with
    | error e => rw [h1] at h; cases h
    | ok g1 =>
      rw [h1] at h
      have ih := ih (fun x hx => hp x (List.mem_cons_of_mem _ hx)) g1 h fuel (by simp at hf; omega)
      rw [Geometry.loop, toStream_cons, List.cons_append, Rd.bind_ok (Rd.next?_cons h9 _)]
      simp only [h3, if_false]
      cases ha : findArm geometryArms p.code with
      | none => rw [ha] at hs; cases hs
      | some a =>
        simp only
        exact (Rd.bind_ok (m := Rd.lift (applyPair geometryArms g p)) (a := g1)
          (by rw [h1]; rfl)).trans ih

theorem geometry_read (g : Geometry) (rest : Stream) :
    Geometry.read (toStream g.pairs ++ rest) = (.ok (some g), rest) := by
  have hl := geometry_loop (emitAll geometryCmds .r2018 g) (by
    rw [geometry_emit]
    simp only [List.mem_cons, List.not_mem_nil, or_false]
    rintro p (rfl | rfl | rfl | rfl | rfl | rfl | rfl | rfl | rfl | rfl | rfl | rfl | rfl | rfl |
      rfl | rfl) <;> exact ⟨by simp [CodePair.newI32, CodePair.newI16, CodePair.newStr,
        CodePair.newF64], by simp [CodePair.newI32, CodePair.newI16, CodePair.newStr,
        CodePair.newF64], rfl⟩)
    (Rec.dflt _) g (geometry_fold g _) (.newStr 3 str!"SectionGeometrySettingsEnd") rfl rest
  obtain ⟨t, ht⟩ : ∃ t, toStream g.pairs ++ rest = some (.ok (.newI32 90 (g 0))) :: t := by
    rw [Geometry.pairs, geometry_emit]
    exact ⟨_, rfl⟩
  rw [Geometry.read, ht, Rd.bind_ok (Rd.next?_cons (by simp [CodePair.newI32]) _)]
  simp only
  rw [Rd.bind_ok (m := Rd.putBack _) (a := ()) rfl]
  change ((Rd.withFuel fun fuel => Geometry.loop fuel (Rec.dflt _)) >>= fun g => pure (some g))
    (some (.ok (CodePair.newI32 90 (g 0))) :: t) = _
  rw [← ht]
  refine (Rd.bind_ok (a := g) (s' := rest) ?_).trans rfl
  rw [Rd.run_withFuel]
  have hs : toStream g.pairs ++ rest = toStream (emitAll geometryCmds .r2018 g) ++
      some (.ok (.newStr 3 str!"SectionGeometrySettingsEnd")) :: rest := by
    simp [Geometry.pairs]
  rw [hs]
  exact hl _ (by simp; omega)

theorem geometry_readAll (gs : List Geometry) (q : CodePair) (hq : q.code = 3) (rest : Stream)
    (fuel : Nat) (hf : gs.length < fuel) :
    Geometry.readAll fuel (toStream (gs.flatMap Geometry.pairs) ++ some (.ok q) :: rest) =
      (.ok gs, some (.ok q) :: rest) := by
  induction gs generalizing fuel with
  | nil =>
    obtain ⟨fuel, rfl⟩ : ∃ f, fuel = f + 1 := ⟨fuel - 1, by omega⟩
    have h : Geometry.read (some (.ok q) :: rest) = (.ok none, some (.ok q) :: rest) := by
      rw [Geometry.read, Rd.bind_ok (Rd.next?_cons (by omega) _)]
      simp only
      rw [Rd.bind_ok (m := Rd.putBack _) (a := ()) rfl, if_neg (by omega)]
      rfl
    rw [Geometry.readAll, List.flatMap_nil, toStream_nil, List.nil_append, Rd.bind_ok h]
    rfl
  | cons g gs ih =>
    obtain ⟨fuel, rfl⟩ : ∃ f, fuel = f + 1 := ⟨fuel - 1, by omega⟩
    have ih := ih fuel (by simp at hf; omega)
    rw [Geometry.readAll, List.flatMap_cons, toStream_append, List.append_assoc,
      Rd.bind_ok (geometry_read g _)]
    simp only
    exact (Rd.bind_ok ih).trans rfl

theorem geometry_length (gs : List Geometry) : gs.length ≤ (gs.flatMap Geometry.pairs).length := by
  induction gs with
  | nil => rfl
  | cons g gs ih =>
    have : 1 ≤ g.pairs.length := by rw [Geometry.pairs, geometry_emit]; simp
    rw [List.flatMap_cons, List.length_append, List.length_cons]
    omega

theorem loop_handle (fuel : Nat) (s : SectionType) (h : Handle) (rest : Stream) :
    SectionType.loop (fuel + 1) s (some (.ok (.newStr 330 h.asString)) :: rest) =
      SectionType.loop fuel { s with sources := s.sources ++ [h] } rest := by
  have : SectionType.loop (fuel + 1) s (some (.ok (.newStr 330 h.asString)) :: rest) =
    (Rd.lift (CodePair.newStr 330 h.asString).asHandle >>= fun x =>
      SectionType.loop fuel { s with sources := s.sources ++ [x] }) rest := rfl
  rw [this, asHandle_newStr]
  rfl

theorem loop_destination (fuel : Nat) (s : SectionType) (h : Handle) (rest : Stream) :
    SectionType.loop (fuel + 1) s (some (.ok (.newStr 331 h.asString)) :: rest) =
      SectionType.loop fuel { s with destination := h } rest := by
  have : SectionType.loop (fuel + 1) s (some (.ok (.newStr 331 h.asString)) :: rest) =
    (Rd.lift (CodePair.newStr 331 h.asString).asHandle >>= fun x =>
      SectionType.loop fuel { s with destination := x }) rest := rfl
  rw [this, asHandle_newStr]
  rfl

theorem sources_loop (hs : List Handle) (s : SectionType) (rest : Stream) (fuel : Nat) :
    SectionType.loop (fuel + hs.length) s
        (toStream (hs.map fun h => .newStr 330 h.asString) ++ rest) =
      SectionType.loop fuel { s with sources := s.sources ++ hs } rest := by
  induction hs generalizing s with
  | nil => simp
  | cons h hs ih =>
    rw [List.length_cons, ← Nat.add_assoc, List.map_cons, toStream_cons,
      List.cons_append, loop_handle, ih, List.append_assoc]
    rfl

/-- Reading a section that is followed by a pair with code 0. -/
theorem section_loop (s : SectionType) (q : CodePair) (hq : q.code = 0) (rest : Stream)
    (fuel : Nat) (hf : 9 + s.sources.length ≤ fuel) :
    SectionType.loop fuel {} (toStream s.pairs.tail ++ some (.ok q) :: rest) =
      (.ok s, some (.ok q) :: rest) := by
  obtain ⟨f, rfl⟩ : ∃ f, fuel = f + 6 + s.sources.length + 3 := ⟨fuel - 9 - s.sources.length, by
    omega⟩
  have h1 : toStream s.pairs.tail ++ some (.ok q) :: rest =
      some (.ok (.newI32 90 s.sectionType)) ::
      some (.ok (.newI32 91 (if s.isGenerationOption then 1#32 else 0#32))) ::
      some (.ok (.newI32 92 (BitVec.ofNat 32 s.sources.length))) ::
      (toStream (s.sources.map fun h => .newStr 330 h.asString) ++
        (some (.ok (.newStr 331 s.destination.asString)) :: some (.ok (.newStr 1 s.fileName)) ::
          some (.ok (.newI32 93 (BitVec.ofNat 32 s.geometry.length))) ::
          some (.ok (.newStr 2 str!"SectionGeometrySettings")) ::
          (toStream (s.geometry.flatMap Geometry.pairs) ++
            some (.ok (.newStr 3 str!"SectionTypeSettingsEnd")) :: some (.ok q) :: rest))) := by
    simp [SectionType.pairs]
  rw [h1]
  have h2 (t : Stream) : SectionType.loop (f + 6 + s.sources.length + 3) {}
      (some (.ok (.newI32 90 s.sectionType)) ::
      some (.ok (.newI32 91 (if s.isGenerationOption then 1#32 else 0#32))) ::
      some (.ok (.newI32 92 (BitVec.ofNat 32 s.sources.length))) :: t) =
      SectionType.loop (f + 6 + s.sources.length) {
        sectionType := s.sectionType
        isGenerationOption := s.isGenerationOption } t := by
    have : SectionType.loop (f + 6 + s.sources.length + 3) {}
      (some (.ok (.newI32 90 s.sectionType)) ::
      some (.ok (.newI32 91 (if s.isGenerationOption then 1#32 else 0#32))) ::
      some (.ok (.newI32 92 (BitVec.ofNat 32 s.sources.length))) :: t) =
      SectionType.loop (f + 6 + s.sources.length) {
        sectionType := s.sectionType
        isGenerationOption := decide (BitVec.setWidth 16
          (if s.isGenerationOption then 1#32 else 0#32) = 1#16) } t := rfl
    rw [this]
    cases s.isGenerationOption <;> rfl
  rw [h2, sources_loop, loop_destination]
  have h3 (s' : SectionType) (t : Stream) : SectionType.loop (f + 5) s'
      (some (.ok (.newStr 1 s.fileName)) ::
        some (.ok (.newI32 93 (BitVec.ofNat 32 s.geometry.length))) :: t) =
      SectionType.loop (f + 3) { s' with fileName := s.fileName } t := rfl
  rw [h3]
  have h4 (s' : SectionType) (t : Stream) : SectionType.loop (f + 3) s'
      (some (.ok (.newStr 2 str!"SectionGeometrySettings")) :: t) =
      (Rd.withFuel Geometry.readAll >>= fun gs =>
        SectionType.loop (f + 2) { s' with geometry := s'.geometry ++ gs }) t := rfl
  rw [h4]
  have h5 := geometry_readAll s.geometry (.newStr 3 str!"SectionTypeSettingsEnd") rfl
    (some (.ok q) :: rest)
  refine (Rd.bind_ok (a := s.geometry) (s' := some (.ok (.newStr 3 str!"SectionTypeSettingsEnd")) ::
    some (.ok q) :: rest) ?_).trans ?_
  · rw [Rd.run_withFuel]
    refine h5 _ ?_
    have := geometry_length s.geometry
    simp only [List.length_append, List.length_cons, toStream_length]
    omega
  · have h6 (s' : SectionType) (t : Stream) : SectionType.loop (f + 2) s'
        (some (.ok (.newStr 3 str!"SectionTypeSettingsEnd")) :: t) =
        SectionType.loop (f + 1) s' t := rfl
    rw [h6, SectionType.loop, Rd.bind_ok (Rd.next?_cons (by omega) _)]
    simp only [hq, if_true]
    obtain ⟨a, b, c, d, e, g⟩ := s
    simp
    rfl

theorem sections_readAll (s : SectionType) (q : CodePair) (hq : q.code = 0) (rest : Stream)
    (fuel : Nat) (hf : 2 ≤ fuel) :
    SectionType.readAll fuel (toStream s.pairs.tail ++ some (.ok q) :: rest) =
      (.ok [s], some (.ok q) :: rest) := by
  obtain ⟨f, rfl⟩ : ∃ f, fuel = f + 2 := ⟨fuel - 2, by omega⟩
  have hr : SectionType.read (toStream s.pairs.tail ++ some (.ok q) :: rest) =
      (.ok (some s), some (.ok q) :: rest) := by
    obtain ⟨t, ht⟩ : ∃ t, toStream s.pairs.tail ++ some (.ok q) :: rest =
        some (.ok (.newI32 90 s.sectionType)) :: t := ⟨_, rfl⟩
    have hl := section_loop s q hq rest ((toStream s.pairs.tail ++ some (.ok q) :: rest).length + 1)
      (by simp [SectionType.pairs]; omega)
    rw [ht] at hl ⊢
    rw [SectionType.read, Rd.bind_ok (Rd.next?_cons (by simp [CodePair.newI32]) _)]
    simp only
    rw [Rd.bind_ok (m := Rd.putBack _) (a := ()) rfl]
    change ((Rd.withFuel fun fuel => SectionType.loop fuel {}) >>= fun s => pure (some s))
      (some (.ok (CodePair.newI32 90 s.sectionType)) :: t) = _
    refine (Rd.bind_ok (a := s) (s' := some (.ok q) :: rest) ?_).trans rfl
    rw [Rd.run_withFuel]
    exact hl
  have hn : SectionType.read (some (.ok q) :: rest) = (.ok none, some (.ok q) :: rest) := by
    rw [SectionType.read, Rd.bind_ok (Rd.next?_cons (by omega) _)]
    simp only
    rw [Rd.bind_ok (m := Rd.putBack _) (a := ()) rfl, if_pos hq]
    rfl
  rw [SectionType.readAll, Rd.bind_ok hr]
  simp only
  refine (Rd.bind_ok (a := []) (s' := some (.ok q) :: rest) ?_).trans rfl
  rw [SectionType.readAll, Rd.bind_ok hn]
  rfl

theorem runs_sections (m : OMode) (e : Entry OName.sectionSettings.decls) (s : SectionType)
    (rest : Stream) (hr : StartsZero rest) :
    Runs OName.sectionSettings.kind.eof OName.sectionSettings.step (m, e, {}) s.pairs
      (m, e, { extra := { sections := [s] } }) rest := by
  obtain ⟨q, t, rfl, hq⟩ := hr
  refine Runs.one (p := .newStr 1 str!"SectionTypeSettings") (ps := s.pairs.tail) (by decide)
    (by decide) ?_
  have h1 : OName.sectionSettings.step (.newStr 1 str!"SectionTypeSettings") (m, e, {})
      (toStream s.pairs.tail ++ some (.ok q) :: t) =
      (((Rd.withFuel SectionType.readAll) >>= fun ss =>
        (pure { extra := { sections := [] ++ ss } } : Rd OWork)) >>= fun w => pure (m, e, w))
      (toStream s.pairs.tail ++ some (.ok q) :: t) := rfl
  rw [h1]
  refine (Rd.bind_ok (a := ({ extra := { sections := [s] } } : OWork)) (s' := some (.ok q) :: t)
    ?_).trans rfl
  refine (Rd.bind_ok (a := [s]) (s' := some (.ok q) :: t) ?_).trans rfl
  rw [Rd.run_withFuel]
  exact sections_readAll s q hq t _ (by simp; omega)

end OName
end Dxf
