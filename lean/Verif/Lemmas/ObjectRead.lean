import Verif.Lemmas.ObjectTails

/-! Reading whole objects. -/

namespace Dxf

namespace OName

/-- What reading has collected before the last lists. -/
def collected (k : OName) (x : OExtra) : OWork :=
  match k with
  | .spatialFilter => { extra := { points := x.points } }
  | _ => {}

theorem unread_collected (k : OName) (x : OExtra) : k.Unread (k.collected x) := by
  intro h
  subst h
  exact ⟨rfl, rfl⟩

theorem runs_mid {k : OName} {e : Entry k.decls} {x : OExtra} (h : Object.Regular ⟨k, e, x⟩)
    (m : OMode) (it : Entry k.decls) (rest : Stream) :
    Runs k.kind.eof k.step (m, it, {}) (k.mid x) (m, it, k.collected x) rest := by
  by_cases h1 : k = .spatialFilter
  · subst h1
    refine Runs.trans (a := [_]) (Runs.one (st' := (m, it, {})) (by simp [CodePair.newI16])
      (by simp [CodePair.newI16]) rfl) ?_
    have := runs_points m it x.points {} rest
    rw [List.nil_append] at this
    exact this
  by_cases h2 : k = .sunStudy
  · subst h2
    have hd : x.dates = [] := h.1
    unfold mid
    rw [hd]
    exact Runs.one (by decide) (by decide) rfl
  · have : k.mid x = [] := by
      revert h1 h2
      cases k <;> simp [mid]
    rw [this]
    have : k.collected x = {} := by
      revert h1
      cases k <;> simp [collected]
    rw [this]
    exact Runs.nil _ _

theorem runs_mid2 {k : OName} {e : Entry k.decls} {x : OExtra} (h : Object.Regular ⟨k, e, x⟩)
    (m : OMode) (hm : k.mode3 m = true) (it : Entry k.decls) (rest : Stream) :
    Runs k.kind.eof k.step (m, it, k.collected x) (k.mid2 x) (m, it, k.collected x) rest := by
  by_cases h2 : k = .sunStudy
  · subst h2
    have hd : x.hours = [] := h.2
    unfold mid2
    rw [hd]
    obtain ⟨a, s⟩ := m
    simp only [mode3] at hm
    subst hm
    exact Runs.one (by decide) (by decide) rfl
  · have : k.mid2 x = [] := by
      revert h2
      cases k <;> simp [mid2]
    rw [this]
    exact Runs.nil _ _

/-- Fields that are only filled while reading. -/
def scratch : OName → List Nat
  | .acadProxyObject => [8, 9, 10]
  | .geoData => [23, 24, 25, 26, 28, 29, 30]
  | _ => []

theorem scratch_unwritten : ∀ k ∈ OName.all, (k.scratch.all fun i =>
    k.statements.all fun g => !g.writes i) = true := by
  decide +kernel

theorem scratch_dflt {k : OName} {v : Version} {a r : Rec k.decls} {sk : List Nat}
    (h : ∀ i, i ∉ sk → Representable k.statements v a i →
        r i = if Written k.statements v a i then a i else Rec.dflt k.decls i) (i : Nat)
    (hi : i ∈ k.scratch) (hs : i ∉ sk) : r i = Rec.dflt k.decls i := by
  have hw := List.all_eq_true.mp (List.all_eq_true.mp (scratch_unwritten k (mem_all k)) i hi)
  rw [h i hs, if_neg]
  · rintro ⟨g, hg, hw', -⟩
    have := hw g hg
    simp [hw'] at this
  · intro g hg _ w hc
    have := hw g hg
    simp [GCmd.writes, hc] at this

/-- What the lists after the fields become. -/
def TailOK (k : OName) (e : Entry k.decls) (x : OExtra) (v : Version) (m : OMode)
    (r : Rec k.decls) : Prop :=
  ∀ ext rest, (e.xdata = [] → StartsZero rest) → ∃ tail m', ∃ r' : Rec k.decls, ∃ w',
    Object.tail ⟨k, e, x⟩ = .ok tail ∧
    Runs k.kind.eof k.step (m, ⟨r, ext, []⟩, k.collected x) tail (m', ⟨r', ext, []⟩, w') rest ∧
    ∀ xs, ∃ r'' : Rec k.decls,
      Object.post ⟨k, ⟨r', ext, xs⟩, w'.extra⟩ = ⟨k, ⟨r'', ext, xs⟩, k.listsBack x⟩ ∧
      ∀ i, i ∉ k.lost v → r'' i = r i

/-- The kinds without lists, and whose reader ends without further ado. -/
def simple : OName → Bool
  | .dictionary | .dictionaryWithDefault | .dataTable | .geoData | .lightList | .mLineStyle
  | .sectionSettings | .spatialFilter | .tableStyle | .xRecordObject | .acadProxyObject
  | .vbaProject => false
  | _ => true

theorem tail_simple {k : OName} (hk : k.simple = true) (e : Entry k.decls) (x : OExtra)
    (v : Version) (m : OMode) (r : Rec k.decls) : TailOK k e x v m r := by
  intro ext rest _
  have h1 : Object.tail ⟨k, e, x⟩ = .ok [] := by
    revert hk e
    cases k <;> simp [simple, Object.tail]
  have h2 : k.collected x = {} := by
    revert hk
    cases k <;> simp [simple, collected]
  have h3 : ∀ r' : Rec k.decls, ∀ ext xs y, Object.post ⟨k, ⟨r', ext, xs⟩, y⟩ =
      ⟨k, ⟨r', ext, xs⟩, y⟩ := by
    clear h1
    revert hk
    cases k <;> simp [simple, Object.post]
  have h4 : k.listsBack x = {} := by
    revert hk
    cases k <;> simp [simple, listsBack]
  refine ⟨[], m, r, {}, h1, ?_, fun xs => ⟨r, ?_, fun _ _ => rfl⟩⟩
  · rw [h2]
    exact Runs.nil _ _
  · rw [h3, h4]

theorem tail_dictionary (e : Entry OName.dictionary.decls) (x : OExtra)
    (h : x.dict.Pairwise fun a b => Str.lt a.1 b.1 = true) (v : Version) (m : OMode)
    (r : Rec OName.dictionary.decls) : TailOK .dictionary e x v m r := by
  intro ext rest _
  obtain ⟨name, hrun⟩ := runs_dict (.inl rfl) m ⟨r, ext, []⟩
    (bif hardOwner e.fields then 360 else 350) (by cases hardOwner e.fields <;> simp) x.dict {}
    (by simpa using h) rest
  exact ⟨_, m, r, _, rfl, hrun, fun xs => ⟨r, rfl, fun _ _ => rfl⟩⟩

theorem tail_withDefault (e : Entry OName.dictionaryWithDefault.decls) (x : OExtra)
    (h : x.dict.Pairwise fun a b => Str.lt a.1 b.1 = true) (v : Version) (m : OMode)
    (r : Rec OName.dictionaryWithDefault.decls) : TailOK .dictionaryWithDefault e x v m r := by
  intro ext rest _
  obtain ⟨name, hrun⟩ := runs_dict (k := .dictionaryWithDefault) (.inr rfl) m ⟨r, ext, []⟩
    350 (.inl rfl) x.dict {} (by simpa using h) rest
  exact ⟨_, m, r, _, rfl, hrun, fun xs => ⟨r, rfl, fun _ _ => rfl⟩⟩

theorem tail_table (e : Entry OName.dataTable.decls) (x : OExtra)
    (hc : x.table.columnCount = 0) (hr : x.table.rowCount < 2 ^ 31) (v : Version) (m : OMode)
    (r : Rec OName.dataTable.decls) : TailOK .dataTable e x v m r := by
  intro ext rest _
  obtain ⟨tail, ht, hrun⟩ := runs_table m ⟨r, ext, []⟩ x.table hc hr rest
  exact ⟨tail, m, r, _, ht, hrun, fun xs => ⟨r, rfl, fun _ _ => rfl⟩⟩

theorem tail_lights (e : Entry OName.lightList.decls) (x : OExtra)
    (h : (e.fields 3 : List Handle) = []) (v : Version) (m : OMode)
    (r : Rec OName.lightList.decls) : TailOK .lightList e x v m r := by
  intro ext rest _
  refine ⟨[.newI32 90 0#32], m, r.set 2 (0#32 : I32), {}, ?_, Runs.one (by decide) (by decide) rfl,
    fun xs => ⟨_, rfl, ?_⟩⟩
  · change Except.ok (CodePair.newI32 90 (BitVec.ofNat 32 (e.fields 3 : List Handle).length) ::
      (e.fields 3 : List Handle).flatMap _) = _
    rw [h]
    rfl
  · intro i hi
    exact Rec.set_ne _ _ (fun h => hi (h ▸ show 2 ∈ [2] by decide))

theorem tail_cells (e : Entry OName.tableStyle.decls) (x : OExtra) (h : x.cells = [])
    (v : Version) (m : OMode) (r : Rec OName.tableStyle.decls) : TailOK .tableStyle e x v m r := by
  intro ext rest _
  refine ⟨[], m, r, {}, ?_, Runs.nil _ _, fun xs => ⟨r, rfl, fun _ _ => rfl⟩⟩
  simp [Object.tail, h]

theorem tail_filter (e : Entry OName.spatialFilter.decls) (x : OExtra) (v : Version) (m : OMode)
    (hm : m.a = true) (r : Rec OName.spatialFilter.decls) : TailOK .spatialFilter e x v m r := by
  intro ext rest _
  refine ⟨_, m, r, _, rfl, runs_matrix m hm ⟨r, ext, []⟩ _ _ rest, fun xs => ⟨r, ?_,
    fun _ _ => rfl⟩⟩
  rw [matrix_fold x.inverse x.transform _ rfl rfl]
  rfl

theorem tail_sections (e : Entry OName.sectionSettings.decls) (x : OExtra)
    (h : x.sections = [] ∨ ((∃ s, x.sections = [s]) ∧ e.xdata = [])) (v : Version) (m : OMode)
    (r : Rec OName.sectionSettings.decls) : TailOK .sectionSettings e x v m r := by
  intro ext rest hz
  rcases h with h | ⟨⟨s, h⟩, hx⟩
  · refine ⟨[.newI32 91 0#32], m, r, {}, ?_, Runs.one (by decide) (by decide) rfl,
      fun xs => ⟨r, ?_, fun _ _ => rfl⟩⟩
    · simp [Object.tail, h]
    · change Object.post ⟨.sectionSettings, ⟨r, ext, xs⟩, {}⟩ = ⟨.sectionSettings, ⟨r, ext, xs⟩, {
        sections := x.sections }⟩
      rw [h]
      rfl
  · refine ⟨.newI32 91 1#32 :: s.pairs, m, r, { extra := { sections := [s] } }, ?_,
      Runs.trans (a := [_]) (Runs.one (st' := (m, ⟨r, ext, []⟩, {})) (by decide) (by decide) rfl)
        (runs_sections m _ s rest (hz hx)), fun xs => ⟨r, ?_, fun _ _ => rfl⟩⟩
    · simp [Object.tail, h]
    · change Object.post ⟨.sectionSettings, ⟨r, ext, xs⟩, { sections := [s] }⟩ =
        ⟨.sectionSettings, ⟨r, ext, xs⟩, { sections := x.sections }⟩
      rw [h]
      rfl

theorem tail_vba (e : Entry OName.vbaProject.decls) (x : OExtra) (v : Version) (m : OMode)
    (r : Rec OName.vbaProject.decls) : TailOK .vbaProject e x v m r := by
  intro ext rest _
  refine ⟨[], m, r, {}, rfl, Runs.nil _ _, fun xs => ⟨_, rfl, ?_⟩⟩
  intro i hi
  have h2 : i ≠ 2 := fun h => hi (h ▸ show _ ∈ [2, 3] from by decide)
  have h3 : i ≠ 3 := fun h => hi (h ▸ show _ ∈ [2, 3] from by decide)
  exact (Rec.set_ne _ _ h3).trans (Rec.set_ne _ _ h2)

theorem tail_proxy (e : Entry OName.acadProxyObject.decls) (x : OExtra) (v : Version) (m : OMode)
    (r : Rec OName.acadProxyObject.decls)
    (hr : ∀ i ∈ OName.acadProxyObject.scratch, r i = Rec.dflt OName.acadProxyObject.decls i) :
    TailOK .acadProxyObject e x v m r := by
  intro ext rest _
  refine ⟨[], m, r, {}, rfl, Runs.nil _ _, fun xs => ⟨_, rfl, ?_⟩⟩
  intro i hi
  by_cases h10 : i = 10
  · subst h10
    exact (hr 10 (by decide)).symm
  by_cases h9 : i = 9
  · subst h9
    exact (hr 9 (by decide)).symm
  by_cases h8 : i = 8
  · subst h8
    exact (hr 8 (by decide)).symm
  have h6 : i ≠ 6 := fun h => hi (h ▸ show _ ∈ [1, 6, 7] from by decide)
  have h7 : i ≠ 7 := fun h => hi (h ▸ show _ ∈ [1, 6, 7] from by decide)
  exact (Rec.set_ne _ _ h10).trans ((Rec.set_ne _ _ h9).trans ((Rec.set_ne _ _ h8).trans
    ((Rec.set_ne _ _ h7).trans (Rec.set_ne _ _ h6))))

theorem runs_fixed (k : OName) (m : OMode) (ps : List CodePair)
    (hc : ∀ p ∈ ps, plainCode p.code = true ∧ k.kind.next m p = m ∧ k.quiet m p.code = true)
    {r r' : Rec k.decls} (ext : List ExtGroup) (h : foldPairs (k.kind.arms m) r ps = .ok r')
    (rest : Stream) :
    Runs k.kind.eof k.step (m, ⟨r, ext, []⟩, {}) ps (m, ⟨r', ext, []⟩, {}) rest :=
  k.runs_quiet ps (fun p hp => (hc p hp).1) m ⟨r, ext, []⟩
    (foldStaged_neutral k.kind.arms k.kind.next m ps (fun p hp => (hc p hp).2.1) h)
    (.neutral (fun p hp => (hc p hp).2.1) fun p hp => (hc p hp).2.2) k.unread_start rest

theorem combine_flat {α : Type} (ms : List α) (f g : α → F64) :
    combinePoints2 (ms.map f) (ms.map g) = ms.map fun x => ⟨f x, g x, .zero⟩ := by
  induction ms with
  | nil => rfl
  | cons p ps ih =>
    rw [List.map_cons, List.map_cons, List.map_cons, ← ih]
    rfl

theorem combine_solid {α : Type} (ms : List α) (f g h : α → F64) :
    combinePoints3 (ms.map f) (ms.map g) (ms.map h) = ms.map fun x => ⟨f x, g x, h x⟩ := by
  induction ms with
  | nil => rfl
  | cons p ps ih =>
    rw [List.map_cons, List.map_cons, List.map_cons, List.map_cons, ← ih]
    rfl

theorem geoPost_lists (r : GeoRec) {a b c d e f g : List F64} (h23 : (r 23 : List F64) = a)
    (h24 : (r 24 : List F64) = b) (h25 : (r 25 : List F64) = c) (h26 : (r 26 : List F64) = d)
    (h28 : (r 28 : List F64) = e) (h29 : (r 29 : List F64) = f) (h30 : (r 30 : List F64) = g) :
    (geoPost r {}).2 = {
      mesh := (combinePoints2 a b).zip (combinePoints2 c d)
      faces := combinePoints3 e f g } := by
  subst h23 h24 h25 h26 h28 h29 h30
  rfl

theorem geoPost_fields (r r0 : GeoRec)
    (h0 : ∀ i ∈ OName.geoData.scratch, r0 i = Rec.dflt OName.geoData.decls i)
    (h : ∀ i, i ∉ [22, 27] → i ∉ OName.geoData.scratch → r i = r0 i) (i : Nat)
    (hi : i ∉ [22, 27]) : (geoPost r {}).1 i = r0 i := by
  by_cases h30 : i = 30
  · subst h30
    exact (h0 30 (by decide)).symm
  by_cases h29 : i = 29
  · subst h29
    exact (h0 29 (by decide)).symm
  by_cases h28 : i = 28
  · subst h28
    exact (h0 28 (by decide)).symm
  by_cases h26 : i = 26
  · subst h26
    exact (h0 26 (by decide)).symm
  by_cases h25 : i = 25
  · subst h25
    exact (h0 25 (by decide)).symm
  by_cases h24 : i = 24
  · subst h24
    exact (h0 24 (by decide)).symm
  by_cases h23 : i = 23
  · subst h23
    exact (h0 23 (by decide)).symm
  rw [← h i hi (by simp [scratch, *])]
  exact (Rec.set_ne _ _ h30).trans ((Rec.set_ne _ _ h29).trans ((Rec.set_ne _ _ h28).trans
    ((Rec.set_ne _ _ h26).trans ((Rec.set_ne _ _ h25).trans ((Rec.set_ne _ _ h24).trans
      (Rec.set_ne _ _ h23))))))

theorem tail_geo (e : Entry OName.geoData.decls) (x : OExtra) (v : Version) (m : OMode)
    (r : GeoRec) (hr : ∀ i ∈ OName.geoData.scratch, r i = Rec.dflt OName.geoData.decls i) :
    TailOK .geoData e x v m r := by
  intro ext rest _
  let r1 : GeoRec := r.set 22 (BitVec.ofNat 32 x.mesh.length : I32)
  obtain ⟨r2, f2, a23, a24, a25, a26, hj2⟩ := geo_mesh x.mesh r1
  let r3 : GeoRec := r2.set 27 (BitVec.ofNat 32 x.faces.length : I32)
  obtain ⟨r4, f4, a28, a29, a30, hj4⟩ := geo_faces x.faces r3
  have f1 : foldPairs Obj.geoDataArms r [.newI32 93 (BitVec.ofNat 32 x.mesh.length)] = .ok r1 := rfl
  have f3 : foldPairs Obj.geoDataArms r2 [.newI32 96 (BitVec.ofNat 32 x.faces.length)] = .ok r3 :=
    rfl
  have hf := foldPairs_cat f1 (foldPairs_cat f2 (foldPairs_cat f3 f4))
  have d (i : Nat) (hi : i ∈ OName.geoData.scratch) : r1 i = Rec.dflt OName.geoData.decls i :=
    (Rec.set_ne r _ (fun h => by subst h; revert hi; decide)).trans (hr i hi)
  have t1 (i : Nat) (h : i ∉ [23, 24, 25, 26, 27]) : r3 i = r1 i :=
    (Rec.set_ne r2 _ (fun h' => h (by simp [h']))).trans (hj2 i fun h' => h (by
      revert h'; simp only [List.mem_cons, List.not_mem_nil, or_false]; omega))
  have t3 (i : Nat) (h : i ∉ [27, 28, 29, 30]) : r4 i = r2 i :=
    (hj4 i fun h' => h (List.mem_cons_of_mem _ h')).trans
      (Rec.set_ne r2 _ (fun h' => h (by simp [h'])))
  have b23 : (r4 23 : List F64) = x.mesh.map fun x => x.1.x :=
    (t3 23 (by decide)).trans (a23.trans (congrArg (List.append · _) (d 23 (by decide))))
  have b24 : (r4 24 : List F64) = x.mesh.map fun x => x.1.y :=
    (t3 24 (by decide)).trans (a24.trans (congrArg (List.append · _) (d 24 (by decide))))
  have b25 : (r4 25 : List F64) = x.mesh.map fun x => x.2.x :=
    (t3 25 (by decide)).trans (a25.trans (congrArg (List.append · _) (d 25 (by decide))))
  have b26 : (r4 26 : List F64) = x.mesh.map fun x => x.2.y :=
    (t3 26 (by decide)).trans (a26.trans (congrArg (List.append · _) (d 26 (by decide))))
  have b28 : (r4 28 : List F64) = x.faces.map fun f => F64.ofInt f.x.asI32.toInt :=
    a28.trans (congrArg (List.append · _) ((t1 28 (by decide)).trans (d 28 (by decide))))
  have b29 : (r4 29 : List F64) = x.faces.map fun f => F64.ofInt f.y.asI32.toInt :=
    a29.trans (congrArg (List.append · _) ((t1 29 (by decide)).trans (d 29 (by decide))))
  have b30 : (r4 30 : List F64) = x.faces.map fun f => F64.ofInt f.z.asI32.toInt :=
    a30.trans (congrArg (List.append · _) ((t1 30 (by decide)).trans (d 30 (by decide))))
  refine ⟨_, m, r4, {}, rfl, ?_, fun xs => ⟨(geoPost r4 {}).1, ?_, ?_⟩⟩
  · have := runs_fixed .geoData m _ ?_ ext hf rest
    · simpa [collected] using this
    · intro p hp
      refine ⟨?_, rfl, rfl⟩
      simp only [List.mem_append, List.mem_flatMap, meshPairs, facePairs,
        List.mem_cons, List.not_mem_nil, or_false] at hp
      rcases hp with rfl | ⟨_, _, rfl | rfl | rfl | rfl⟩ | rfl | ⟨_, _, rfl | rfl | rfl⟩ <;> rfl
  · change Object.mk .geoData ⟨(geoPost r4 {}).1, ext, xs⟩ (geoPost r4 {}).2 = _
    rw [geoPost_lists r4 b23 b24 b25 b26 b28 b29 b30, combine_flat, combine_flat, combine_solid,
      List.zip_map']
    rfl
  · refine geoPost_fields r4 r hr fun i hi hs => ?_
    rw [t3 i, hj2 i]
    · exact Rec.set_ne r _ fun h => hi (by simp [h])
    · intro h
      apply hs
      revert h
      simp only [scratch, List.mem_cons, List.not_mem_nil, or_false]
      omega
    · intro h
      revert h hi hs
      simp only [scratch, List.mem_cons, List.not_mem_nil, or_false]
      omega

theorem tail_mLine (e : Entry OName.mLineStyle.decls) (x : OExtra) (v : Version) (m : OMode)
    (r : Rec OName.mLineStyle.decls) : TailOK .mLineStyle e x v m r := by
  intro ext rest _
  let r1 : Rec OName.mLineStyle.decls :=
    r.set 8 ((BitVec.ofNat 16 x.elements.length).signExtend 32 : I32)
  have hone : Runs OName.mLineStyle.kind.eof OName.mLineStyle.step (m, ⟨r, ext, []⟩, {})
      [.newI16 71 (BitVec.ofNat 16 x.elements.length)] ({ m with a := true }, ⟨r1, ext, []⟩, {})
      (toStream (x.elements.flatMap MElement.pairs) ++ rest) :=
    Runs.one (by simp [CodePair.newI16]) (by simp [CodePair.newI16]) rfl
  obtain ⟨r2, f2, hj⟩ := mLine_elements x.elements { m with a := true } rfl r1
  have htwo := runs_fixed .mLineStyle { m with a := true } (x.elements.flatMap MElement.pairs) (by
      intro p hp
      simp only [List.mem_flatMap, MElement.pairs, List.mem_cons, List.not_mem_nil, or_false] at hp
      rcases hp with ⟨_, _, rfl | rfl | rfl⟩ <;> exact ⟨rfl, rfl, rfl⟩) ext f2 rest
  refine ⟨_, _, r2, {}, rfl, Runs.trans hone htwo, fun xs => ⟨r2, rfl, fun i hi => ?_⟩⟩
  have hi : i ∉ [8, 9, 10, 11] := hi
  rw [hj i fun h => hi (List.mem_cons_of_mem _ h)]
  exact Rec.set_ne r _ fun h => hi (by simp [h])

theorem tail_ok {k : OName} {e : Entry k.decls} {x : OExtra} (h : Object.Regular ⟨k, e, x⟩)
    (v : Version) {m : OMode} (hm : k.mode4 m = true) {r : Rec k.decls}
    (hr : ∀ i ∈ k.scratch, r i = Rec.dflt k.decls i) : TailOK k e x v m r := by
  by_cases hs : k.simple = true
  · exact tail_simple hs e x v m r
  · cases k <;> try exact absurd rfl hs
    case dictionary => exact tail_dictionary e x h v m r
    case dictionaryWithDefault => exact tail_withDefault e x h v m r
    case dataTable => exact tail_table e x h.1 h.2 v m r
    case geoData => exact tail_geo e x v m r hr
    case lightList => exact tail_lights e x h v m r
    case mLineStyle => exact tail_mLine e x v m r
    case sectionSettings => exact tail_sections e x h v m r
    case spatialFilter => exact tail_filter e x v m hm r
    case tableStyle => exact tail_cells e x h v m r
    case xRecordObject => exact h.elim
    case acadProxyObject => exact tail_proxy e x v m r hr
    case vbaProject => exact tail_vba e x v m r

theorem regular_timely {k : OName} {e : Entry k.decls} {x : OExtra}
    (h : Object.Regular ⟨k, e, x⟩) : k.Timely e.fields := by
  cases k <;> first | exact h | exact trivial

theorem scratch_kept : ∀ k ∈ OName.all, ∀ v ∈ Version.all,
    (k.scratch.all fun i => !(k.lost v).contains i) = true := by
  decide +kernel

/-- Reading an object that was written. -/
theorem read_object {k : OName} {e : Entry k.decls} {x : OExtra} (h : Object.Regular ⟨k, e, x⟩)
    (v : Version) (hs : k.supported v = true) (hext : ExtGroup.AllPlain e.ext) (rest : Stream)
    (hr : StartsZero rest) :
    ∃ pairs b, Object.pairs v ⟨k, e, x⟩ = .ok pairs ∧ k.Restored v e b ∧
      ∀ fuel, readObject (fuel + 1) (toStream pairs ++ rest) =
        (.ok (some ⟨k, b, k.listsBack x⟩), rest) := by
  have hk : k ≠ .xRecordObject := by
    rintro rfl
    exact h
  obtain ⟨hck, hlate⟩ := check_both k hk v hs
  obtain ⟨m2, m3, m4, r, hm3, hm4, hval', hfold, hrun⟩ :=
    read_parts hk hck e (regular_timely h) hext
  have hval : ∀ i, i ∉ k.lost v → Representable k.statements v e.fields i →
      r i = if Written k.statements v e.fields i then e.fields i else Rec.dflt k.decls i := by
    intro i hi hrep
    by_cases hil : i ∈ k.late v
    · exact late_value hk hck e.fields (regular_timely h) hfold i hil (hlate i hil).1
        (hlate i hil).2 hrep
    · exact hval' i (by simp [hi, hil]) hrep
  have hsc : ∀ i ∈ k.scratch, r i = Rec.dflt k.decls i := fun i hi => scratch_dflt hval i hi (by
    have := List.all_eq_true.mp (scratch_kept k (mem_all k) v (version_mem v)) i hi
    simpa using this)
  have hfront := hrun (k.mid x) (k.mid2 x) (k.collected x) (k.collected x)
    (k.unread_collected x) (k.unread_collected x) (fun it rest => runs_mid h m2 it rest)
    (fun it rest => runs_mid2 h m3 hm3 it rest)
  obtain ⟨tail, m5, r', w', htail, hrt, hpost⟩ := tail_ok h v hm4 hsc
    (if .r14 ≤ v then ExtGroup.kept e.ext else [])
    (toStream (e.xdata.flatMap fun x => x.pairs v) ++ rest) (fun hx => by simpa [hx] using hr)
  have hx : Runs k.kind.eof k.step (m5, ⟨r', if .r14 ≤ v then ExtGroup.kept e.ext else [], []⟩, w')
      (e.xdata.flatMap fun x => x.pairs v)
      (m5, ⟨r', if .r14 ≤ v then ExtGroup.kept e.ext else [],
        if .r2000 ≤ v then e.xdata else []⟩, w') rest := by
    by_cases hv : .r2000 ≤ v
    · have := k.runs_xdata hk m5 w' e.xdata v hv
        ⟨r', if .r14 ≤ v then ExtGroup.kept e.ext else [], []⟩ rest hr.stops
      simpa [if_pos hv] using this
    · rw [xdata_old _ _ hv, if_neg hv]
      exact Runs.nil _ _
  obtain ⟨r'', hp, hlost⟩ := hpost (if .r2000 ≤ v then e.xdata else [])
  refine ⟨Object.front v ⟨k, e, x⟩ ++ tail ++ e.xdata.flatMap fun x => x.pairs v,
    ⟨r'', if .r14 ≤ v then ExtGroup.kept e.ext else [], if .r2000 ≤ v then e.xdata else []⟩, ?_,
    ⟨fun i hi hrep => (hlost i hi).trans (hval i hi hrep), rfl, rfl⟩, fun fuel => ?_⟩
  · rw [Object.pairs, if_pos hs, htail]
    rfl
  · have hall := Runs.trans (hfront _) (Runs.trans hrt hx)
    obtain ⟨q, s, rfl, hq⟩ := hr
    have hfr : Object.front v ⟨k, e, x⟩ ++ tail ++ (e.xdata.flatMap fun x => x.pairs v) =
        .newStr 0 k.kind.typeString :: (emitAll k.part1 v e.fields ++
            ((if .r14 ≤ v then e.ext.flatMap ExtGroup.pairs else []) ++
              (emitAll k.part2 v e.fields ++ (k.mid x ++ (emitAll k.part3 v e.fields ++
                (k.mid2 x ++ emitAll k.part4 v e.fields))))) ++
          (tail ++ e.xdata.flatMap fun x => x.pairs v)) := by
      simp [Object.front, part1, part2, part3, part4]
    rw [hfr]
    generalize emitAll k.part1 v e.fields ++
            ((if .r14 ≤ v then e.ext.flatMap ExtGroup.pairs else []) ++
              (emitAll k.part2 v e.fields ++ (k.mid x ++ (emitAll k.part3 v e.fields ++
                (k.mid2 x ++ emitAll k.part4 v e.fields))))) ++
          (tail ++ e.xdata.flatMap fun x => x.pairs v) = ps at hall
    have hloop := hall.done hq ((toStream ps ++ some (.ok q) :: s).length + 1) (by simp)
    rw [toStream_cons, List.cons_append, readObject,
      Rd.bind_ok (Rd.next_cons (by simp [CodePair.newStr]) _), if_pos (by rfl),
      Rd.bind_ok (m := Rd.lift (CodePair.newStr 0 k.kind.typeString).assertString)
        (a := k.kind.typeString) rfl,
      if_neg (by simp only [not_or]; exact k.typeString_ne)]
    rw [k.ofType_typeString]
    simp only
    rw [Rd.bind_ok (by rw [Rd.run_withFuel]; exact hloop)]
    simp only
    rw [hp]
    rfl

/-! ### Extended records -/

theorem runs_data (m : OMode) (hm : m.a = true) (e : Entry OName.xRecordObject.decls)
    (ps : List CodePair) (hc : ∀ p ∈ ps, p.code ≠ 0 ∧ p.code ≠ 999) (w : OWork) (rest : Stream) :
    Runs OName.xRecordObject.kind.eof OName.xRecordObject.step (m, e, w) ps
      (m, e, { w with extra := { w.extra with pairs := w.extra.pairs ++ ps } }) rest := by
  induction ps generalizing w with
  | nil => simpa using Runs.nil (m, e, w) rest
  | cons p ps ih =>
    have h1 : Runs OName.xRecordObject.kind.eof OName.xRecordObject.step (m, e, w) [p]
        (m, e, { w with extra := { w.extra with pairs := w.extra.pairs ++ [p] } })
        (toStream ps ++ rest) := by
      refine Runs.one (hc p List.mem_cons_self).1 (hc p List.mem_cons_self).2 ?_
      obtain ⟨a, s⟩ := m
      simp only at hm
      subst hm
      rfl
    have h2 := ih (fun p hp => hc p (List.mem_cons_of_mem _ hp))
      { w with extra := { w.extra with pairs := w.extra.pairs ++ [p] } }
    simp only [List.append_assoc, List.cons_append, List.nil_append] at h2
    exact Runs.trans (a := [p]) h1 h2

theorem xdata_codes (xs : List XData) (v : Version) :
    ∀ p ∈ xs.flatMap fun x => x.pairs v, 1000 ≤ p.code := by
  intro p hp
  obtain ⟨x, -, hp⟩ := List.mem_flatMap.mp hp
  unfold XData.pairs at hp
  split at hp
  · rcases List.mem_cons.mp hp with rfl | hp
    · simp [CodePair.newStr]
    · exact XDataItem.codes_ge_list _ p hp
  · cases hp

abbrev XRec := Rec OName.xRecordObject.decls

theorem step_own (m : OMode) (hm : m.a = false) (r : XRec) (ext : List ExtGroup) (h : Handle)
    (rest : Stream) :
    Runs OName.xRecordObject.kind.eof OName.xRecordObject.step (m, ⟨r, ext, []⟩, {})
      [.newStr 5 h.asString] (m, ⟨r.set 0 h, ext, []⟩, {}) rest := by
  obtain ⟨a, s⟩ := m
  simp only at hm
  subst hm
  refine Runs.one (by simp [CodePair.newStr]) (by simp [CodePair.newStr]) ?_
  have h1 (x : Str) (rest : Stream) : OName.xRecordObject.step (.newStr 5 x)
      (⟨false, s⟩, ⟨r, ext, []⟩, {}) rest = ((do
        let r ← Rd.lift ((CodePair.newStr 5 x).asHandle.map fun v => (r.set 0 v : XRec))
        return ⟨r, ext, []⟩ : Rd (Entry OName.xRecordObject.decls)) >>= fun e =>
          (pure (⟨false, s⟩, e, {}) : Rd (OState .xRecordObject))) rest := rfl
  rw [h1, asHandle_newStr]
  rfl

theorem step_owner (m : OMode) (hm : m.a = false) (r : XRec) (ext : List ExtGroup) (h : Handle)
    (rest : Stream) :
    Runs OName.xRecordObject.kind.eof OName.xRecordObject.step (m, ⟨r, ext, []⟩, {})
      [.newStr 330 h.asString] (m, ⟨r.set 1 h, ext, []⟩, {}) rest := by
  obtain ⟨a, s⟩ := m
  simp only at hm
  subst hm
  refine Runs.one (by simp [CodePair.newStr]) (by simp [CodePair.newStr]) ?_
  have h1 (x : Str) (rest : Stream) : OName.xRecordObject.step (.newStr 330 x)
      (⟨false, s⟩, ⟨r, ext, []⟩, {}) rest = ((do
        let r ← Rd.lift ((CodePair.newStr 330 x).asHandle.map fun v => (r.set 1 v : XRec))
        return ⟨r, ext, []⟩ : Rd (Entry OName.xRecordObject.decls)) >>= fun e =>
          (pure (⟨false, s⟩, e, {}) : Rd (OState .xRecordObject))) rest := rfl
  rw [h1, asHandle_newStr]
  rfl

/-- How duplicate records are handled. -/
def duplicate (r : XRec) : I16 :=
  BitVec.ofInt 16 (E.dictionaryDuplicateRecordHandling.get
    (r 2 : Fin E.dictionaryDuplicateRecordHandling.length))

theorem handle_ne {h : Handle} (hh : h ≠ 0#64) :
    (!(Ty.rustEq .handle h (0#64 : Handle))) = true := by
  change (!decide (h = 0#64)) = true
  simp [hh]

/-- Reading the front of an extended record. -/
theorem runs_front (v : Version) (r : XRec) (ext : List ExtGroup) (m : OMode) (hm : m.a = false)
    (r0 : XRec) (h0 : (r0 1 : Handle) = 0#64) (rest : Stream) :
    ∃ r1 : XRec, Runs OName.xRecordObject.kind.eof OName.xRecordObject.step
        (m, ⟨r0, ext, []⟩, {})
        (emitAll (objectCmds OName.xRecordObject.kind.spec ++ OName.xRecordObject.kind.cmds) v r)
        ({ m with a := true }, ⟨r1, ext, []⟩,
          { extra := { pairs := [.newI16 280 (duplicate r)] } }) rest ∧
      r1 1 = r 1 ∧ ∀ j, j ≠ 1 → r1 j = r0 j := by
  have hlast (r1 : XRec) : Runs OName.xRecordObject.kind.eof OName.xRecordObject.step
      (m, ⟨r1, ext, []⟩, {}) [.newStr 100 str!"AcDbXrecord", .newI16 280 (duplicate r)]
      ({ m with a := true }, ⟨r1, ext, []⟩,
          { extra := { pairs := [.newI16 280 (duplicate r)] } }) rest := by
    obtain ⟨a, s⟩ := m
    simp only at hm
    subst hm
    refine Runs.trans (a := [_]) (Runs.one (by decide) (by decide) rfl) ?_
    exact runs_data ⟨true, s⟩ rfl _ [.newI16 280 (duplicate r)] (by simp [CodePair.newI16]) _ rest
  have hemit : emitAll (objectCmds OName.xRecordObject.kind.spec ++ OName.xRecordObject.kind.cmds)
      v r = (if (!(Ty.rustEq .handle (r 1) (0#64 : Handle))) = true then
        [.newStr 330 (Handle.asString (r 1 : Handle))] else []) ++
      [.newStr 100 str!"AcDbXrecord", .newI16 280 (duplicate r)] := rfl
  rw [hemit]
  by_cases h : (r 1 : Handle) = 0#64
  · rw [if_neg (by rw [h]; decide)]
    exact ⟨r0, hlast r0, h0.trans h.symm, fun _ _ => rfl⟩
  · rw [if_pos]
    · refine ⟨r0.set 1 (r 1 : Handle), Runs.trans (step_owner m hm r0 ext (r 1) _) (hlast _), rfl,
        fun j hj => Rec.set_ne r0 _ hj⟩
    · exact handle_ne h

/-- Reading an extended record that was written. -/
theorem read_xrecord (e : Entry OName.xRecordObject.decls) (x : OExtra) (v : Version)
    (hs : OName.xRecordObject.supported v = true) (hext : ExtGroup.AllPlain e.ext)
    (hd : ∀ p ∈ x.pairs, p.code ≠ 0 ∧ p.code ≠ 999) (rest : Stream) (hr : StartsZero rest) :
    ∃ pairs, Object.pairs v ⟨.xRecordObject, e, x⟩ = .ok pairs ∧ ∃ r : XRec,
      r 0 = e.fields 0 ∧ r 1 = e.fields 1 ∧ r 2 = Rec.dflt OName.xRecordObject.decls 2 ∧
      ∀ fuel, readObject (fuel + 1) (toStream pairs ++ rest) =
        (.ok (some ⟨.xRecordObject, ⟨r, if .r14 ≤ v then ExtGroup.kept e.ext else [], []⟩, {
          pairs := .newI16 280 (duplicate e.fields) :: x.pairs ++
            e.xdata.flatMap fun x => x.pairs v }⟩), rest) := by
  let r0 : XRec := (Rec.dflt OName.xRecordObject.decls).set 0 (e.fields 0)
  have s1 := step_own OMode.start rfl (Rec.dflt OName.xRecordObject.decls) [] (e.fields 0)
  have s2 : ∀ rest, Runs OName.xRecordObject.kind.eof OName.xRecordObject.step
      (OMode.start, ⟨r0, [], []⟩, {})
      (if .r14 ≤ v then e.ext.flatMap ExtGroup.pairs else [])
      (OMode.start, ⟨r0, if .r14 ≤ v then ExtGroup.kept e.ext else [], []⟩, {}) rest := by
    intro rest
    by_cases hv : .r14 ≤ v
    · simp only [if_pos hv]
      have := runs_groups .xRecordObject OMode.start rfl (fun _ => rfl)
        (OName.xRecordObject.unread_start) e.ext hext ⟨r0, [], []⟩ rest
      simpa using this
    · simp only [if_neg hv]
      exact Runs.nil _ _
  have hcodes : ∀ p ∈ x.pairs ++ e.xdata.flatMap fun x => x.pairs v, p.code ≠ 0 ∧ p.code ≠ 999 := by
    intro p hp
    rcases List.mem_append.mp hp with hp | hp
    · exact hd p hp
    · have := xdata_codes e.xdata v p hp
      omega
  obtain ⟨r, s3, h1, hj⟩ := runs_front v e.fields
    (if .r14 ≤ v then ExtGroup.kept e.ext else []) OMode.start rfl r0 rfl
    (toStream (x.pairs ++ e.xdata.flatMap fun x => x.pairs v) ++ rest)
  have s4 := runs_data { OMode.start with a := true } rfl
    ⟨r, if .r14 ≤ v then ExtGroup.kept e.ext else [], []⟩ _ hcodes
    { extra := { pairs := [.newI16 280 (duplicate e.fields)] } } rest
  have hall := Runs.trans (s1 _) (Runs.trans (s2 _) (Runs.trans s3 s4))
  refine ⟨Object.front v ⟨.xRecordObject, e, x⟩ ++ x.pairs ++ e.xdata.flatMap fun x => x.pairs v,
    by rw [Object.pairs, if_pos hs]; rfl, r, hj 0 (by decide), h1, hj 2 (by decide), fun fuel => ?_⟩
  obtain ⟨q, s, rfl, hq⟩ := hr
  have hfr : Object.front v ⟨.xRecordObject, e, x⟩ ++ x.pairs ++
      (e.xdata.flatMap fun x => x.pairs v) = .newStr 0 OName.xRecordObject.kind.typeString ::
        ([CodePair.newStr 5 (Handle.asString (e.fields 0))] ++
          ((if .r14 ≤ v then e.ext.flatMap ExtGroup.pairs else []) ++
            (emitAll (objectCmds OName.xRecordObject.kind.spec ++ OName.xRecordObject.kind.cmds) v
              e.fields ++ (x.pairs ++ e.xdata.flatMap fun x => x.pairs v)))) := by
    have h1 : emitAll (objectHead OName.xRecordObject.kind.spec) v e.fields =
      [CodePair.newStr 5 (Handle.asString (e.fields 0))] := rfl
    have h2 : emitAll OName.xRecordObject.kind.cmds2 v e.fields = [] := rfl
    have h3 : emitAll OName.xRecordObject.kind.cmds3 v e.fields = [] := rfl
    simp [Object.front, h1, h2, h3, mid, mid2]
  rw [hfr]
  generalize [CodePair.newStr 5 (Handle.asString (e.fields 0))] ++
          ((if .r14 ≤ v then e.ext.flatMap ExtGroup.pairs else []) ++
            (emitAll (objectCmds OName.xRecordObject.kind.spec ++ OName.xRecordObject.kind.cmds) v
              e.fields ++ (x.pairs ++ e.xdata.flatMap fun x => x.pairs v))) = ps at hall
  have hloop := hall.done hq ((toStream ps ++ some (.ok q) :: s).length + 1) (by simp)
  rw [toStream_cons, List.cons_append, readObject,
    Rd.bind_ok (Rd.next_cons (by simp [CodePair.newStr]) _), if_pos (by rfl),
    Rd.bind_ok (m := Rd.lift
      (CodePair.newStr 0 OName.xRecordObject.kind.typeString).assertString)
      (a := OName.xRecordObject.kind.typeString) rfl,
    if_neg (by simp only [not_or]; exact OName.xRecordObject.typeString_ne)]
  rw [ofType_typeString]
  simp only
  rw [Rd.bind_ok (by rw [Rd.run_withFuel]; exact hloop)]
  rfl

end OName
end Dxf
