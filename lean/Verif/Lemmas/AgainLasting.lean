import Verif.Lemmas.AgainDrawing
import Mathlib.Data.List.Perm.Subperm

/-! A drawing that was loaded can be saved again. -/

namespace Dxf

open Drawing

variable {Img : Type} {codec : ImageCodec Img} {h0 : Header} {d p d' : Drawing Img}

/-! ### Extension groups -/

mutual
theorem ExtItem.prune_plain (i : ExtItem) (h : ExtItem.Plain i) : ExtItem.Plain (ExtItem.prune i) := by
  match i with
  | .pair p => simpa [ExtItem.prune] using h
  | .group name items =>
    simp only [ExtItem.Plain] at h
    simp only [ExtItem.prune, ExtItem.Plain]
    exact ExtItem.pruneList_plain items h
theorem ExtItem.pruneList_plain (is : List ExtItem) (h : ExtItem.PlainList is) :
    ExtItem.PlainList (ExtItem.pruneList is) := by
  match is with
  | [] => simp [ExtItem.pruneList, ExtItem.PlainList]
  | .pair p :: is =>
    simp only [ExtItem.PlainList] at h
    simp only [ExtItem.pruneList, ExtItem.PlainList]
    exact ⟨h.1, ExtItem.pruneList_plain is h.2⟩
  | .group name [] :: is =>
    simp only [ExtItem.PlainList] at h
    simp only [ExtItem.pruneList]
    exact ExtItem.pruneList_plain is h.2
  | .group name (i :: r) :: is =>
    simp only [ExtItem.PlainList] at h
    simp only [ExtItem.pruneList, ExtItem.PlainList]
    exact ⟨ExtItem.prune_plain _ h.1, ExtItem.pruneList_plain is h.2⟩
end

mutual
theorem ExtItem.prune_noZero (i : ExtItem) (h : ExtItem.NoZero i) :
    ExtItem.NoZero (ExtItem.prune i) := by
  match i with
  | .pair p => simpa [ExtItem.prune] using h
  | .group name items =>
    simp only [ExtItem.NoZero] at h
    simp only [ExtItem.prune, ExtItem.NoZero]
    exact ExtItem.pruneList_noZero items h
theorem ExtItem.pruneList_noZero (is : List ExtItem) (h : ExtItem.NoZeroList is) :
    ExtItem.NoZeroList (ExtItem.pruneList is) := by
  match is with
  | [] => simp [ExtItem.pruneList, ExtItem.NoZeroList]
  | .pair p :: is =>
    simp only [ExtItem.NoZeroList] at h
    simp only [ExtItem.pruneList, ExtItem.NoZeroList]
    exact ⟨h.1, ExtItem.pruneList_noZero is h.2⟩
  | .group name [] :: is =>
    simp only [ExtItem.NoZeroList] at h
    simp only [ExtItem.pruneList]
    exact ExtItem.pruneList_noZero is h.2
  | .group name (i :: r) :: is =>
    simp only [ExtItem.NoZeroList] at h
    simp only [ExtItem.pruneList, ExtItem.NoZeroList]
    exact ⟨ExtItem.prune_noZero _ h.1, ExtItem.pruneList_noZero is h.2⟩
end

theorem ExtGroup.kept_plain {v : Version} {gs gs' : List ExtGroup} (h : ExtGroup.AllPlain gs)
    (e : gs' = if .r14 ≤ v then ExtGroup.kept gs else []) : ExtGroup.AllPlain gs' := by
  subst e
  split
  · intro g hg
    obtain ⟨g', hg', rfl⟩ := List.mem_map.mp hg
    exact ExtItem.pruneList_plain _ (h g' (List.mem_filter.mp hg').1)
  · exact nofun

theorem ExtGroup.kept_noZero {v : Version} {gs gs' : List ExtGroup}
    (h : .r14 ≤ v → ∀ g ∈ gs, ExtItem.NoZeroList g.items)
    (e : gs' = if .r14 ≤ v then ExtGroup.kept gs else []) :
    .r14 ≤ v → ∀ g ∈ gs', ExtItem.NoZeroList g.items := by
  intro hv
  subst e
  rw [if_pos hv]
  intro g hg
  obtain ⟨g', hg', rfl⟩ := List.mem_map.mp hg
  exact ExtItem.pruneList_noZero _ (h hv g' (List.mem_filter.mp hg').1)

/-! ### Items -/

theorem TName.restored_ext {t : TName} {v : Version} {wh : Bool} {a b : t.Item}
    (h : t.Restored v wh a b) : b.ext = if .r14 ≤ v then ExtGroup.kept a.ext else [] := by
  cases t
  case layer => exact h.1.2.1
  all_goals exact h.2.1

/-- What is demanded of entities. -/
def Entity.Fit (v : Version) (e : Entity) : Prop := e.toFlat.Proper ∧
  ¬ e.toFlat.OldRotated v ∧ ExtGroup.AllPlain e.entry.ext ∧ e.Whole v

theorem Entity.fit_restored {v : Version} {wh : Bool} {e f : Entity} (h : e.Restored v wh f)
    (hf : e.Fit v) : f.Fit v := by
  obtain ⟨h1, h2, h3, h4⟩ := hf
  obtain ⟨b, hb, x', hx, rfl⟩ := h
  refine ⟨h1, h2, ExtGroup.kept_plain h3 hb.2.2.1, fun hv hi => ?_⟩
  have h4 := h4 hv hi
  have := Extra.kept_of hx
  change e.kind = .insert at hi
  have e1 := this.empty hi
  rw [h4] at e1
  exact List.isEmpty_iff.mp e1

theorem Entity.fit_same {v : Version} {e f : Entity} {c : Entry e.kind.decls} {y : Extra}
    (hf : e.Fit v) (hg : f = ⟨⟨e.kind, e.sub, c⟩, y⟩) (he : c.ext = e.entry.ext)
    (hu : y.unhandled = e.extra.unhandled) : f.Fit v := by
  subst hg
  obtain ⟨h1, h2, h3, h4⟩ := hf
  refine ⟨h1, h2, by rw [he]; exact h3, fun hv hi => ?_⟩
  have h4 := h4 hv hi
  have := congrArg (fun x : Extra => x.atts.length) hu
  simp only [Extra.unhandled, List.length_map, h4, List.length_nil] at this
  exact List.length_eq_zero_iff.mp this

theorem Entity.fit_handled {v : Version} {e f : Entity} (hf : e.Fit v) (h : e.Handled f) :
    f.Fit v := by
  obtain ⟨⟨k, n, a⟩, x⟩ := e
  obtain ⟨⟨k', n', a'⟩, x'⟩ := f
  unfold Entity.Handled at h
  split at h
  · obtain ⟨h, e1, e2⟩ := h
    cases e1
    exact Entity.fit_same hf rfl rfl e2
  · cases h
    exact hf

theorem FWrite.fits_handles {t : Ty} (ht : t = .list .handle) (w : FWrite t) (a b : t.den) :
    w.Fits a b := by
  cases w with
  | one code c => cases c <;> first | trivial | cases ht
  | many code c =>
    cases ht
    intro x _
    cases c <;> trivial
  | axes => cases ht
  | points => cases ht
  | lw => trivial

theorem Object.regular_restored {v : Version} {o q : Object} (h : o.Restored v q)
    (hr : o.Regular) (ht : o.kind = .layerIndex ∨ o.kind = .spatialIndex →
      Representable o.kind.statements v o.entry.fields 2) : q.Regular := by
  obtain ⟨k, a, x⟩ := o
  obtain ⟨b, hb, rfl⟩ := h
  cases k
  case xRecordObject => exact hr
  case dictionary => exact hr
  case dictionaryWithDefault => exact hr
  case dataTable => exact ⟨rfl, hr.2⟩
  case lightList =>
    have := hb.1 3 (show 3 ∉ [2] by decide) fun _ _ _ w _ => FWrite.fits_handles rfl w _ _
    change (b.fields 3 : List Handle) = []
    refine Eq.trans this ?_
    split
    · exact hr
    · rfl
  case sectionSettings =>
    rcases hr with hr | ⟨hr, hx⟩
    · exact .inl hr
    · refine .inr ⟨hr, ?_⟩
      refine hb.2.2.trans ?_
      split
      · exact hx
      · rfl
  case sunStudy => exact ⟨rfl, rfl⟩
  case tableStyle => exact rfl
  case layerIndex =>
    have := hb.1 2 (show 2 ∉ [] by decide) (ht (.inl rfl))
    rw [if_pos ⟨{ cmd := .field 2 (.one 40 .date) }, List.mem_of_getElem? (i := 3) rfl, rfl, rfl⟩]
      at this
    change ∃ d, Date.ofDouble (Date.asDouble (b.fields 2 : Date)) = .ok d
    rw [this]
    exact hr
  case spatialIndex =>
    have := hb.1 2 (show 2 ∉ [] by decide) (ht (.inr rfl))
    rw [if_pos ⟨{ cmd := .field 2 (.one 40 .date) }, List.mem_of_getElem? (i := 3) rfl, rfl, rfl⟩]
      at this
    change ∃ d, Date.ofDouble (Date.asDouble (b.fields 2 : Date)) = .ok d
    rw [this]
    exact hr
  all_goals trivial

theorem Object.stamp_restored {v : Version} {o q : Object} (h : o.Restored v q)
    (ht : o.kind = .layerIndex ∨ o.kind = .spatialIndex →
      Representable o.kind.statements v o.entry.fields 2) :
    q.kind = .layerIndex ∨ q.kind = .spatialIndex →
      Representable q.kind.statements v q.entry.fields 2 := by
  obtain ⟨k, a, x⟩ := o
  obtain ⟨b, hb, rfl⟩ := h
  intro hk
  have ht := ht hk
  refine (steady_congr (steady_object k) ?_).1 ht
  rcases hk with hk | hk
  · change k = _ at hk
    subst hk
    have := hb.1 2 (show 2 ∉ [] by decide) ht
    rw [if_pos ⟨{ cmd := .field 2 (.one 40 .date) }, List.mem_of_getElem? (i := 3) rfl, rfl, rfl⟩]
      at this
    exact this.symm
  · change k = _ at hk
    subst hk
    have := hb.1 2 (show 2 ∉ [] by decide) ht
    rw [if_pos ⟨{ cmd := .field 2 (.one 40 .date) }, List.mem_of_getElem? (i := 3) rfl, rfl, rfl⟩]
      at this
    exact this.symm

theorem Object.regular_handled {v : Version} {o q : Object} (h : o.Handled q) :
    (o.Regular → q.Regular) ∧ q.entry.ext = o.entry.ext ∧ q.kind = o.kind ∧
    ((o.kind = .layerIndex ∨ o.kind = .spatialIndex →
      Representable o.kind.statements v o.entry.fields 2) →
    (q.kind = .layerIndex ∨ q.kind = .spatialIndex →
      Representable q.kind.statements v q.entry.fields 2)) := by
  unfold Object.Handled at h
  split at h
  · obtain ⟨h, rfl⟩ := h
    obtain ⟨k, a, x⟩ := o
    refine ⟨fun hr => ?_, rfl, rfl, fun ht hk => ?_⟩
    · cases k <;> exact hr
    · have hk : k = .layerIndex ∨ k = .spatialIndex := hk
      refine (steady_congr (steady_object k) ?_).1 (ht hk)
      exact (Rec.set_ne (i := 0) (j := 2) a.fields h (by decide)).symm
  · subst h
    exact ⟨id, rfl, rfl, id⟩

/-! ### The drawing -/

theorem header_stamps {g : Header} (hv : d'.version = d.version) (hh : ∀ i, i ≠ 141 →
      Representable Header.known d.version d.header i →
      d'.header i = if Written Header.known d.version d.header i then d.header i else g i)
    {i : Nat} (hi : i ∈ [122, 123, 124, 125])
    (hr : Representable Header.known d.version d.header i) :
    Representable Header.known d'.version d'.header i := by
  have h141 : i ≠ 141 := by
    rintro rfl
    exact absurd hi (by decide)
  have hn : i ∈ Header.nondet := by
    revert hi
    simp only [List.mem_cons, List.not_mem_nil, or_false]
    rintro (rfl | rfl | rfl | rfl) <;> decide
  rw [hv]
  intro g hg hh' w hc
  have hw : g.writes i = true := by
    unfold GCmd.writes
    rw [hc]
    exact beq_self_eq_true i
  have hcd := (steady_header g hg).2 i hn hw
  have hh2 : g.holds d.version d.header = true := by
    unfold GCmd.holds at hh' ⊢
    rw [hcd] at hh' ⊢
    exact hh'
  rw [hh i h141 hr, if_pos ⟨g, hg, hw, hh2⟩]
  exact hr g hg hh2 w hc

theorem lasting_once (hl : d.Lasting codec) (hf : h0.Fresh) (hdr : h0.DatesReadable)
    (hr : d.Restored h0 p) (hc : p.Completed d') : d'.Lasting codec := by
  have hk := kept_once hf hr hc
  have ev := version_kept hk hl.version
  have hh : ∀ i, i ≠ 141 → Representable Header.known d.version d.header i →
      d'.header i = if Written Header.known d.version d.header i then d.header i else h0 i :=
    fun i hi hrep => (hc.header i hi).trans (hr.header i hrep)
  have hdate : ∀ i, i ∈ [122, 123, 124, 125] → d'.header i = d.header i ∨ d'.header i = h0 i := by
    intro i hi
    have := hh i (by rintro rfl; exact absurd hi (by decide)) (hl.stamps i hi)
    split at this
    · exact .inl this
    · exact .inr this
  -- table entries
  have htab : ∀ t : TName, ∀ x ∈ d'.tables t, (∃ a ∈ d.tables t, ∃ b,
      t.Restored d.version d.writeHandles a b ∧ t.Handled b x) ∨
      ∃ s h, x = t.setHandle (t.named s) h := by
    intro t x hx
    obtain ⟨items, new, e, h1, h2⟩ := hc.table t
    rw [e] at hx
    rcases List.mem_append.mp hx with hx | hx
    · obtain ⟨b, hb, hbx⟩ := forall2_origin h1 hx
      obtain ⟨a, ha, hab⟩ := forall2_origin (hr.tables t) hb
      refine .inl ⟨a, ?_, b, hab, hbx⟩
      unfold filed at ha
      split at ha
      · cases ha
      · exact ha
    · exact .inr (h2 x hx)
  have hlay : ∀ x ∈ d'.tables .layer, 0 < (x.fields 3 : I16).toInt := by
    intro x hx
    rcases htab .layer x hx with ⟨a, ha, b, hab, hbx⟩ | ⟨s, h, rfl⟩
    · have hp := hl.positive a ha
      have e : x.fields 3 = a.fields 3 :=
        (hbx.same.1 3 (by decide)).trans (hab.2 hp).1
      rw [e]
      exact hp
    · change 0 < (7#16 : I16).toInt
      decide
  have hent : ∀ e ∈ d'.entities ++ d'.blocks.flatMap Block.entities, e.Fit d.version := by
    intro e he
    rcases List.mem_append.mp he with he | he
    · obtain ⟨b, hb, hbx⟩ := forall2_origin hc.entities he
      obtain ⟨a, ha, hab⟩ := forall2_origin hr.entities hb
      exact Entity.fit_handled (Entity.fit_restored hab
        (hl.entities a (List.mem_append_left _ (List.mem_filter.mp ha).1))) hbx
    · obtain ⟨c, hcm, he⟩ := List.mem_flatMap.mp he
      obtain ⟨b, hb, es, hes, hbc⟩ := forall2_origin hc.blocks hcm
      obtain ⟨a, ha, hab⟩ := forall2_origin hr.blocks hb
      have hce : c.entities = es := by
        split at hbc
        · obtain ⟨h, rfl⟩ := hbc
          rfl
        · rw [hbc]
      rw [hce] at he
      obtain ⟨f, hf, h, rfl⟩ := forall2_origin hes he
      obtain ⟨g, hg, hgf⟩ := forall2_origin hab.2 hf
      refine Entity.fit_same (Entity.fit_restored hgf (hl.entities g (List.mem_append_right _
        (List.mem_flatMap.mpr ⟨a, ha, (List.mem_filter.mp hg).1⟩)))) rfl rfl rfl
  have hobj : ∀ q ∈ d'.objects, (.r13 ≤ d.version → q.Regular ∧ ExtGroup.AllPlain q.entry.ext) ∧
      (q.kind = .layerIndex ∨ q.kind = .spatialIndex →
        Representable q.kind.statements d.version q.entry.fields 2) := by
    intro q hq
    obtain ⟨new, items, e, h1, -, h2, -⟩ := hc.objects
    rw [e] at hq
    rcases List.mem_append.mp hq with hq | hq
    · obtain ⟨-, -, s, h, -, rfl⟩ := h2 q hq
      exact ⟨fun _ => ⟨trivial, nofun⟩, fun h => by rcases h with h | h <;> cases h⟩
    · obtain ⟨b, hb, hbq⟩ := forall2_origin h1 hq
      obtain ⟨a, ha, hab⟩ := forall2_origin hr.objects hb
      split at ha
      · rename_i h13
        have ham := (List.mem_filter.mp ha).1
        have hreg := hl.objects h13 a ham
        obtain ⟨k1, k2, k3, k4⟩ := Object.regular_handled (v := d.version) hbq
        refine ⟨fun _ => ⟨k1 (Object.regular_restored hab hreg.1 (hl.timestamps a ham)), ?_⟩,
          k4 (Object.stamp_restored hab (hl.timestamps a ham))⟩
        rw [k2]
        obtain ⟨c, hcr, rfl⟩ := hab
        exact ExtGroup.kept_plain hreg.2 hcr.2.1
      · cases ha
  exact {
    version := by rw [ev]; exact hl.version
    dates := by
      obtain ⟨a1, a2, a3, a4⟩ := hl.dates
      obtain ⟨b1, b2, b3, b4⟩ := hdr
      refine ⟨?_, ?_, ?_, ?_⟩
      · rcases hdate 122 (by decide) with e | e
        · rw [e]
          exact a1
        · rw [e]
          exact b1
      · rcases hdate 123 (by decide) with e | e
        · rw [e]
          exact a2
        · rw [e]
          exact b2
      · rcases hdate 124 (by decide) with e | e
        · rw [e]
          exact a3
        · rw [e]
          exact b3
      · rcases hdate 125 (by decide) with e | e
        · rw [e]
          exact a4
        · rw [e]
          exact b4
    classNames := by
      rw [ev, hk.classes]
      intro hv c hc
      obtain ⟨c, hcm, rfl⟩ := List.mem_map.mp hc
      have : (Class.visible d.version c).recordName = c.recordName := by
        unfold Class.visible
        split
        · rfl
        · split <;> rfl
      rw [this]
      exact hl.classNames hv c hcm
    classCounts := by
      rw [ev, hk.classes]
      intro hv c hc
      obtain ⟨c, hcm, rfl⟩ := List.mem_map.mp hc
      have : (Class.visible d.version c).instanceCount = c.instanceCount := by
        unfold Class.visible
        rw [if_pos hv]
      rw [this]
      exact hl.classCounts hv c hcm
    tables := by
      intro t x hx
      rcases htab t x hx with ⟨a, ha, b, hab, hbx⟩ | ⟨s, h, rfl⟩
      · rw [hbx.same.2.1]
        exact ExtGroup.kept_plain (hl.tables t a ha) (TName.restored_ext hab)
      · rw [t.set_ext]
        cases t <;> exact nofun
    colors := by
      intro x hx
      have := hlay x hx
      omega
    blocks := by
      intro c hcm
      obtain ⟨b, hb, es, -, hbc⟩ := forall2_origin hc.blocks hcm
      obtain ⟨a, ha, hab⟩ := forall2_origin hr.blocks hb
      have he : c.entry.ext = b.entry.ext := by
        split at hbc
        · obtain ⟨h, rfl⟩ := hbc
          rfl
        · rw [hbc]
      have hx := hab.1.2.1
      obtain ⟨h1, h2⟩ := hl.blocks a ha
      rw [he, ev]
      exact ⟨ExtGroup.kept_plain h1 hx, ExtGroup.kept_noZero h2 hx⟩
    entities := by
      rw [ev]
      exact hent
    objects := by
      rw [ev]
      exact fun hv q hq => (hobj q hq).1 hv
    thumbnail := by
      rw [ev, hk.thumbnail]
      intro hv
      rw [if_pos hv]
      exact hl.thumbnail hv
    stamps := fun i hi => header_stamps ev hh hi (hl.stamps i hi)
    positive := hlay
    timestamps := by
      rw [ev]
      exact fun q hq => (hobj q hq).2 }

/-! ### Handles needed -/

theorem length_le_of_count {α : Type} [DecidableEq α] {l l' : List α}
    (h : ∀ a, l.count a ≤ l'.count a) : l.length ≤ l'.length := by
  exact (List.subperm_ext_iff.mpr fun a _ => h a).length_le

theorem length_le_of_interval {l : List Handle} {a b : Nat} (hn : l.Nodup)
    (h : ∀ x ∈ l, a ≤ x.toNat ∧ x.toNat < b) : l.length ≤ b - a := by
  have h1 : (l.map BitVec.toNat).Nodup := hn.map fun _ _ e => BitVec.eq_of_toNat_eq e
  have h2 : l.map BitVec.toNat ⊆ List.range' a (b - a) := by
    intro y hy
    obtain ⟨x, hx, rfl⟩ := List.mem_map.mp hy
    have := h x hx
    rw [List.mem_range'_1]
    omega
  have := (h1.subperm h2).length_le
  rwa [List.length_map, List.length_range'] at this

theorem sum_map_eq {α β : Type} {R : α → β → Prop} {f : α → Nat} {g : β → Nat}
    (h : ∀ a b, R a b → f a = g b) {l : List α} {l' : List β} (hl : List.Forall₂ R l l') :
    (l.map f).sum = (l'.map g).sum := by
  induction hl with
  | nil => rfl
  | cons hab _ ih => rw [List.map_cons, List.map_cons, List.sum_cons, List.sum_cons, h _ _ hab, ih]

theorem flatMap_proper_length {α : Type} (f : α → Handle) (l : List α) :
    (l.flatMap fun x => (f x).proper).length ≤ l.length := by
  induction l with
  | nil => exact Nat.le_refl _
  | cons a l ih =>
    rw [List.flatMap_cons, List.length_append, List.length_cons]
    have : (f a).proper.length ≤ 1 := by
      unfold Handle.proper
      split <;> simp
    omega

theorem Entity.children_handled {x y : Entity} (h : x.Handled y) :
    y.extra.atts.length = x.extra.atts.length ∧ y.extra.verts.length = x.extra.verts.length := by
  unfold Entity.Handled at h
  split at h
  · obtain ⟨_, -, h⟩ := h
    have h1 := congrArg (fun e => e.atts.length) h
    have h2 := congrArg (fun e => e.verts.length) h
    simp only [Extra.unhandled, List.length_map] at h1 h2
    exact ⟨h1, h2⟩
  · subst h
    exact ⟨rfl, rfl⟩

theorem Object.layers_handled {x y : Object} (h : x.Handled y) : y.layers = x.layers := by
  unfold Object.Handled at h
  split at h
  · obtain ⟨h, rfl⟩ := h
    obtain ⟨k, a, b⟩ := x
    cases k <;> rfl
  · rw [h]

/-- A cycle uses as many handles as the drawing demands, and makes the demand at most eight times
as large. -/
theorem Drawing.demand_once (hr : d.Restored h0 p) (hc : p.Completed d')
    (hl : Loads p.fileHandles p.outline d') (hn : d'.next.toNat ≤ d.next.toNat + d.demand) :
    d'.demand ≤ 8 * d.demand := by
  have hp := demand_restored hr
  obtain ⟨fs, f1, f2, f3⟩ := hl.fresh
  have en : p.outline.next = d.next := (show p.outline.next = p.next from rfl).trans
    (next_restored hr)
  have hfs : fs.length ≤ d.demand := by
    have := length_le_of_interval f1 f2
    rw [en] at this
    omega
  have hlen : d'.handles.length ≤ fs.length + p.fileHandles.length := by
    rw [← List.length_append]
    refine length_le_of_count fun x => ?_
    have := f3 x
    rw [handlesOf_none, handlesOf_none] at this
    have hz : p.outline.handles.count x = 0 := by simp [handles, outline, TName.all]
    rw [List.count_append]
    omega
  -- the parts
  have ht : ∀ t : TName, (p.tables t).length ≤ (d'.tables t).length := by
    intro t
    obtain ⟨items, new, e, h1, -⟩ := hc.table t
    rw [e, List.length_append, h1.length_eq]
    omega
  obtain ⟨new, items, eo, o1, -, o2, -⟩ := hc.objects
  have hb : (p.blocks.map fun b : Block => 5 + 5 * b.entities.length).sum =
      (d'.blocks.map fun b : Block => 5 + 5 * b.entities.length).sum := by
    refine sum_map_eq (fun b c h => ?_) hc.blocks
    obtain ⟨es, h1, h2⟩ := h
    have hce : c.entities = es := by
      split at h2
      · obtain ⟨h, rfl⟩ := h2
        rfl
      · rw [h2]
    rw [hce, h1.length_eq]
  have he : (p.entities.map fun e => 18 + e.extra.atts.length + e.extra.verts.length).sum =
      (d'.entities.map fun e => 18 + e.extra.atts.length + e.extra.verts.length).sum :=
    sum_map_eq (fun a b h => by
      obtain ⟨h1, h2⟩ := Entity.children_handled h
      rw [h1, h2]) hc.entities
  have ho : (p.objects.map fun o : Object => 7 + 2 * o.layers.length).sum =
      (items.map fun o : Object => 7 + 2 * o.layers.length).sum :=
    sum_map_eq (fun a b h => by rw [Object.layers_handled h]) o1
  have hnew : (new.map fun o : Object => 7 + 2 * o.layers.length).sum = 7 * new.length := by
    clear eo
    induction new with
    | nil => rfl
    | cons o os ih =>
      obtain ⟨-, -, s, h, -, rfl⟩ := o2 _ List.mem_cons_self
      rw [List.map_cons, List.sum_cons, ih fun x hx => o2 x (List.mem_cons_of_mem _ hx),
        List.length_cons]
      change 7 + 2 * 0 + _ = _
      omega
  have eobj : d'.objects.length = new.length + items.length := by
    rw [eo, List.length_append]
  have esum : (d'.objects.map fun o : Object => 7 + 2 * o.layers.length).sum =
      7 * new.length + (p.objects.map fun o : Object => 7 + 2 * o.layers.length).sum := by
    rw [eo, List.map_append, List.sum_append, hnew, ho]
  have hfile : p.fileHandles.length ≤ (TName.all.map fun t => (p.tables t).length).sum +
      p.blocks.length + p.entities.length + p.objects.length := by
    have h1 : ∀ ts : List TName, (ts.flatMap fun t => (p.tables t).flatMap fun x =>
        (t.handle x).proper).length ≤ (ts.map fun t => (p.tables t).length).sum := by
      intro ts
      induction ts with
      | nil => exact Nat.le_refl _
      | cons t ts ih =>
        rw [List.flatMap_cons, List.length_append, List.map_cons, List.sum_cons]
        have := flatMap_proper_length t.handle (p.tables t)
        omega
    have h1 := h1 TName.all
    have h2 := flatMap_proper_length Block.handle p.blocks
    have h3 := flatMap_proper_length Entity.handle p.entities
    have h4 := flatMap_proper_length Object.handle p.objects
    unfold fileHandles
    simp only [List.length_append]
    omega
  have hall : (TName.all.map fun t => (d'.tables t).length).sum + d'.blocks.length +
      d'.entities.length + d'.objects.length ≤ d'.handles.length := by
    unfold handles
    simp only [List.length_append, List.length_flatMap, List.length_map]
    omega
  have e1 := hc.blocks.length_eq
  have e2 := hc.entities.length_eq
  have e3 := o1.length_eq
  unfold Drawing.demand at hp ⊢
  rw [esum, ← hb, ← he]
  have k1 : (TName.all.map fun t => 2 * (d'.tables t).length).sum =
      2 * (TName.all.map fun t => (d'.tables t).length).sum := by
    simp only [TName.all, List.map_cons, List.map_nil, List.sum_cons, List.sum_nil]
    omega
  have k2 : (TName.all.map fun t => 2 * (p.tables t).length).sum =
      2 * (TName.all.map fun t => (p.tables t).length).sum := by
    simp only [TName.all, List.map_cons, List.map_nil, List.sum_cons, List.sum_nil]
    omega
  have k3 : (TName.all.map fun t => (p.tables t).length).sum ≤
      (TName.all.map fun t => (d'.tables t).length).sum :=
    sum_le (R := fun a b => b = a) (by rintro _ t rfl; exact ht t)
      (List.forall₂_same.mpr fun _ _ => rfl)
  unfold Drawing.demand at hfs
  omega

/-- One cycle. -/
theorem Drawing.cycle (hfr : h0.Fresh) (order : List Str) (ho : 41 + 2 * order.length < 2 ^ 64)
    (hf : d.Faithful codec) (hroom : d.next.toNat + d.demand < 2 ^ 64) :
    ∃ ps p d', d.codePairs codec = .ok ps ∧ load codec h0 order (toStream ps) = (.ok d', []) ∧
      d.Restored h0 p ∧ p.Completed d' ∧ d'.next.toNat ≤ d.next.toNat + d.demand ∧
      d'.demand ≤ 8 * d.demand := by
  obtain ⟨ps, p, h1, h2, h3⟩ := load_written hfr order ho d hf
  have hd := demand_restored h2
  have e : p.outline.next = d.next := (show p.outline.next = p.next from rfl).trans
    (next_restored h2)
  obtain ⟨d', ha, hr⟩ := affords_assemble p (2 ^ 64 - 1 - d.next.toNat - d.demand) (by
    unfold Room
    rw [e]
    omega)
  obtain ⟨hc, hl⟩ := assemble_ok ha
  have hn : d'.next.toNat ≤ d.next.toNat + d.demand := by
    unfold Room at hr
    change d'.next.toNat + _ < _ at hr
    omega
  exact ⟨ps, p, d', h1, (h3 d' ha).1, h2, hc, hn, demand_once h2 hc hl hn⟩

/-- What a cycle did. -/
theorem Drawing.cycle_of (hfr : h0.Fresh) {order : List Str} (ho : 41 + 2 * order.length < 2 ^ 64)
    (hf : d.Faithful codec) (hroom : d.next.toNat + d.demand < 2 ^ 64) {ps : List CodePair}
    (hp : d.codePairs codec = .ok ps) (hl : load codec h0 order (toStream ps) = (.ok d', [])) :
    ∃ p, d.Restored h0 p ∧ p.Completed d' ∧ d'.next.toNat ≤ d.next.toNat + d.demand ∧
      d'.demand ≤ 8 * d.demand := by
  obtain ⟨qs, p, d1, h1, h2, h3⟩ := cycle hfr order ho hf hroom
  cases Except.ok.inj (h1.symm.trans hp)
  cases Except.ok.inj (Prod.mk.inj (h2.symm.trans hl)).1
  exact ⟨p, h3⟩

theorem Drawing.cycles_lasting (hl : d.Lasting codec) {n : Nat} (hc : Cycles codec n d d') :
    d'.Lasting codec ∧ (0 < n → d.Kept d') ∧ d'.version = d.version := by
  induction hc with
  | none => exact ⟨hl, fun h => absurd h (Nat.lt_irrefl _), rfl⟩
  | more hc hf hdr ho hroom hp hld ih =>
    obtain ⟨h1, h2, h3⟩ := ih hl
    obtain ⟨p, k1, k2, -⟩ := cycle_of hf ho h1.toFaithful hroom hp hld
    have hk := kept_once hf k1 k2
    refine ⟨lasting_once h1 hf hdr k1 k2, fun _ => ?_, (version_kept hk h1.version).trans h3⟩
    cases hc with
    | none => exact hk
    | more => exact kept_trans hl.version (h2 (Nat.succ_pos _)) hk

end Dxf
