import Verif.Spec.Reload
import Verif.Lemmas.DrawingOps
import Verif.Lemmas.Assemble

/-! What assembling the content of a file adds to it. -/

namespace Dxf

/-- The handle, if it is one. -/
def Handle.proper (h : Handle) : List Handle := if h = 0#64 then [] else [h]

namespace Drawing

variable {Img : Type}

/-! ### Handles -/

/-- From `d` to `d'` no handles occur additionally but those in `old` and new ones. -/
structure Loads (old : List Handle) (d d' : Drawing Img) : Prop where
  next : d.next.toNat ≤ d'.next.toNat
  fresh : ∃ fs : List Handle, fs.Nodup ∧
    (∀ h ∈ fs, d.next.toNat ≤ h.toNat ∧ h.toNat < d'.next.toNat) ∧
    ∀ h, (d'.handlesOf fun _ => []).count h ≤
      (d.handlesOf fun _ => []).count h + fs.count h + old.count h

theorem Gains.loads {d d' : Drawing Img} (g : Gains (fun _ => []) d d') : Loads [] d d' := by
  obtain ⟨fs, h1, h2, h3⟩ := g.fresh
  exact ⟨g.next, fs, h1, h2, by simpa using h3⟩

namespace Loads

theorem refl (d : Drawing Img) : Loads [] d d := (Gains.refl d).loads

theorem trans {a b : List Handle} {d d' d'' : Drawing Img} (g : Loads a d d')
    (g' : Loads b d' d'') : Loads (a ++ b) d d'' := by
  obtain ⟨fs, h1, h2, h3⟩ := g.fresh
  obtain ⟨gs, h1', h2', h3'⟩ := g'.fresh
  have n1 := g.next
  have n2 := g'.next
  refine ⟨by omega, fs ++ gs, ?_, ?_, ?_⟩
  · rw [List.nodup_append]
    refine ⟨h1, h1', ?_⟩
    rintro x hx y hy rfl
    have := h2 x hx
    have := h2' x hy
    omega
  · intro x hx
    rcases List.mem_append.mp hx with hx | hx
    · have := h2 x hx
      omega
    · have := h2' x hx
      omega
  · intro x
    have e1 := h3 x
    have e2 := h3' x
    rw [List.count_append, List.count_append]
    omega

/-- Taking handles, doing something else, taking more handles, and using the handles taken. -/
theorem use {d d1 d2 d3 d' : Drawing Img} {fs fs' old : List Handle} (a : Taken d d1 fs)
    (g : Gains (fun _ => []) d1 d2) (b : Taken d2 d3 fs') (hn : d'.next = d3.next)
    (h : ∀ h, (d'.handlesOf fun _ => []).count h ≤
      (d3.handlesOf fun _ => []).count h + fs.count h + fs'.count h + old.count h) :
    Loads old d d' := by
  obtain ⟨gs, h1, h2, h3⟩ := g.fresh
  have n1 := a.next
  have n2 := g.next
  have n3 := b.next
  refine ⟨by rw [hn]; omega, fs ++ gs ++ fs', ?_, ?_, ?_⟩
  · rw [List.nodup_append, List.nodup_append]
    refine ⟨⟨a.nodup, h1, ?_⟩, b.nodup, ?_⟩
    · rintro x hx y hy rfl
      have := a.bounds x hx
      have := h2 x hy
      omega
    · rintro x hx y hy rfl
      have hb := b.bounds x hy
      rcases List.mem_append.mp hx with hx | hx
      · have := a.bounds x hx
        omega
      · have := h2 x hx
        omega
  · intro x hx
    rw [hn]
    rcases List.mem_append.mp hx with hx | hx
    · rcases List.mem_append.mp hx with hx | hx
      · have := a.bounds x hx
        omega
      · have := h2 x hx
        omega
    · have := b.bounds x hx
      omega
  · intro x
    have e1 := h x
    have e2 := h3 x
    rw [b.handlesOf] at e1
    rw [a.handlesOf] at e2
    rw [List.count_append, List.count_append]
    omega

/-- Some growing, and then adding an item with the handle `h`. -/
theorem keep {h : Handle} (hh : h ≠ 0#64) {d d1 d' : Drawing Img} (g : Gains (fun _ => []) d d1)
    (hn : d'.next = d1.next)
    (hc : ∀ x, (d'.handlesOf fun _ => []).count x ≤
      (d1.handlesOf fun _ => []).count x + [h].count x) : Loads h.proper d d' := by
  obtain ⟨fs, h1, h2, h3⟩ := g.fresh
  refine ⟨by rw [hn]; exact g.next, fs, h1, by rw [hn]; exact h2, fun x => ?_⟩
  have e1 := hc x
  have e2 := h3 x
  rw [Handle.proper, if_neg hh]
  omega

/-- With a new handle. -/
theorem new {h : Handle} (hh : h = 0#64) {d d' : Drawing Img} (g : Gains (fun _ => []) d d') :
    Loads h.proper d d' := by
  rw [Handle.proper, if_pos hh]
  exact g.loads

end Loads

/-! ### Tables -/

theorem addNoHandle_tables {d d' : Drawing Img} {t : TName} {x : t.Item}
    (h : d.addNoHandle t x = .ok d') {t' : TName} (h1 : t' ≠ t)
    (h2 : t' ≠ .lineType ∨ t ≠ .layer) : d'.tables t' = d.tables t' := by
  cases t
  case layer =>
    obtain ⟨d1, e1, e2⟩ := bind_ok h
    cases e2
    rw [push, tables_set_ne _ _ (Ne.symm h1)]
    exact (ensurePlain_ok e1).2.2 t' (h2.resolve_right (by simp))
  all_goals
    cases h
    exact tables_set_ne _ _ (Ne.symm h1)

theorem addNoHandle_objects {d d' : Drawing Img} {t : TName} {x : t.Item}
    (h : d.addNoHandle t x = .ok d') : d'.objects = d.objects := by
  cases t
  case layer =>
    obtain ⟨d1, e1, e2⟩ := bind_ok h
    cases e2
    exact (ensurePlain_objects e1 :)
  all_goals
    cases h
    rfl

/-- Adding an entry that was read. -/
theorem addRead_ok {d d' : Drawing Img} {t : TName} {x : t.Item} (h : addRead t d x = .ok d') :
    (∃ d2 y, Grows d d2 ∧ d2.tables t = d.tables t ∧ d' = d2.push t y ∧ t.Handled x y) ∧
      Loads (t.handle x).proper d d' ∧ d'.objects = d.objects ∧
      ∀ t', t' ≠ t → (t' ≠ .lineType ∨ t ≠ .layer) → d'.tables t' = d.tables t' := by
  unfold addRead at h
  by_cases hz : t.handle x = 0#64
  · rw [if_pos hz] at h
    obtain ⟨⟨y, d1⟩, h1, h2⟩ := bind_ok h
    cases h2
    obtain ⟨hd, e1, e2, hn, rfl, g, ht, rfl⟩ := add_ok h1
    refine ⟨⟨e2, _, (grows_next hn).trans g, ht, rfl, ?_⟩, .new hz (gains_add h1), add_objects h1,
      fun t' => add_tables h1⟩
    unfold TName.Handled
    rw [if_pos hz]
    exact ⟨hd, rfl⟩
  · rw [if_neg hz] at h
    obtain ⟨d1, g, ht, rfl⟩ := addNoHandle_ok h
    refine ⟨⟨d1, x, g, ht, rfl, ?_⟩, ?_, addNoHandle_objects h, fun t' => addNoHandle_tables h⟩
    · unfold TName.Handled
      rw [if_neg hz]
    · exact .keep hz g.gains rfl fun x => by rw [count_push]

/-- Additional entries for missing names. -/
def Extends (d d' : Drawing Img) (t : TName) : Prop :=
  ∃ new, d'.tables t = d.tables t ++ new ∧ (new.map t.name).Nodup ∧
    ∀ x ∈ new, d.has t (t.name x) = false ∧ ∃ h, x = t.setHandle (t.named (t.name x)) h

namespace Extends

theorem of_eq {d d' : Drawing Img} {t : TName} (h : d'.tables t = d.tables t) : Extends d d' t :=
  ⟨[], by simpa using h, by simp, by simp⟩

theorem has {d d' : Drawing Img} {t : TName} (g : Extends d d' t) {s : Str}
    (h : d.has t s = true) : d'.has t s = true := by
  obtain ⟨new, hn, -⟩ := g
  simp only [Drawing.has, hn, List.any_append, Bool.or_eq_true]
  exact .inl h

theorem trans {d d' d'' : Drawing Img} {t : TName} (g : Extends d d' t) (g' : Extends d' d'' t) :
    Extends d d'' t := by
  have hh := fun s => g.has (s := s)
  obtain ⟨n, hn, h2, h1⟩ := g
  obtain ⟨n', hn', h2', h1'⟩ := g'
  refine ⟨n ++ n', by rw [hn', hn, List.append_assoc], ?_, fun x hx => ?_⟩
  · rw [List.map_append, List.nodup_append]
    refine ⟨h2, h2', ?_⟩
    rintro a ha b hb rfl
    obtain ⟨x, hx, rfl⟩ := List.mem_map.mp ha
    obtain ⟨y, hy, hxy⟩ := List.mem_map.mp hb
    have := (h1' y hy).1
    rw [← Bool.not_eq_true, has_iff] at this
    exact this ⟨x, by simp [hn, hx], hxy.symm⟩
  · rcases List.mem_append.mp hx with hx | hx
    · exact h1 x hx
    · refine ⟨?_, (h1' x hx).2⟩
      refine Bool.eq_false_iff.mpr fun hc => ?_
      exact absurd (h1' x hx).1 (by simp [hh _ hc])

end Extends

theorem Grows.extends {d d' : Drawing Img} (g : Grows d d') (t : TName) : Extends d d' t := by
  obtain ⟨new, h1, h2, h3⟩ := g.tables t
  exact ⟨new, h1, h3, fun x hx => ⟨(h2 x hx).1, _, (h2 x hx).2⟩⟩

/-- What adding the entries of a table does. -/
structure Filled (t : TName) (xs : List t.Item) (d d' : Drawing Img) : Prop where
  header : ∀ i, i ≠ 141 → d'.header i = d.header i
  classes : d'.classes = d.classes
  blocks : d'.blocks = d.blocks
  entities : d'.entities = d.entities
  objects : d'.objects = d.objects
  thumbnail : d'.thumbnail = d.thumbnail
  self : ∃ ys, d'.tables t = d.tables t ++ ys ∧ List.Forall₂ t.Handled xs ys
  same : ∀ t', t' ≠ t → (t' ≠ .lineType ∨ t ≠ .layer) → d'.tables t' = d.tables t'
  lineTypes : t ≠ .lineType → Extends d d' .lineType
  loads : Loads (xs.flatMap fun x => (t.handle x).proper) d d'

theorem filled {t : TName} {xs : List t.Item} {d d' : Drawing Img}
    (h : xs.foldlM (addRead t) d = .ok d') : Filled t xs d d' := by
  induction xs generalizing d with
  | nil =>
    cases h
    exact ⟨fun _ _ => rfl, rfl, rfl, rfl, rfl, rfl, ⟨[], by simp, .nil⟩, fun _ _ _ => rfl,
      fun _ => .of_eq rfl, .refl _⟩
  | cons x xs ih =>
    rw [List.foldlM_cons] at h
    obtain ⟨d1, h1, h2⟩ := bind_ok h
    obtain ⟨⟨d2, y, g, ht, rfl, hy⟩, hl, ho, hs⟩ := addRead_ok h1
    have f := ih h2
    refine ⟨fun i hi => (f.header i hi).trans (g.header i hi), f.classes.trans g.classes,
      f.blocks.trans g.blocks, f.entities.trans g.entities, f.objects.trans ho,
      f.thumbnail.trans g.thumbnail, ?_, fun t' h1 h2 => (f.same t' h1 h2).trans (hs t' h1 h2),
      fun hne => ?_, ?_⟩
    · obtain ⟨ys, e, hf⟩ := f.self
      refine ⟨y :: ys, ?_, .cons hy hf⟩
      rw [e, push, tables_set, ht, List.append_assoc]
      rfl
    · refine Extends.trans ?_ (f.lineTypes hne)
      obtain ⟨new, e, r⟩ := g.extends .lineType
      refine ⟨new, ?_, r⟩
      rw [push, tables_set_ne _ _ hne]
      exact e
    · rw [List.flatMap_cons]
      exact hl.trans f.loads

theorem fill_cons {p d d' : Drawing Img} {t : TName} {ts : List TName}
    (h : p.fill (t :: ts) d = .ok d') :
    ∃ d1, Filled t (p.tables t) d d1 ∧ p.fill ts d1 = .ok d' := by
  rw [fill, List.foldlM_cons] at h
  obtain ⟨d1, h1, h2⟩ := bind_ok h
  exact ⟨d1, filled h1, h2⟩

/-- What is not in tables stays. -/
theorem fill_rest {p d d' : Drawing Img} {ts : List TName} (h : p.fill ts d = .ok d') :
    (∀ i, i ≠ 141 → d'.header i = d.header i) ∧ d'.classes = d.classes ∧ d'.blocks = d.blocks ∧
      d'.entities = d.entities ∧ d'.objects = d.objects ∧ d'.thumbnail = d.thumbnail ∧
      Loads (ts.flatMap fun t => (p.tables t).flatMap fun x => (t.handle x).proper) d d' := by
  induction ts generalizing d with
  | nil =>
    cases h
    exact ⟨fun _ _ => rfl, rfl, rfl, rfl, rfl, rfl, .refl _⟩
  | cons t ts ih =>
    obtain ⟨d1, f, h⟩ := fill_cons h
    obtain ⟨h1, h2, h3, h4, h5, h6, h7⟩ := ih h
    refine ⟨fun i hi => (h1 i hi).trans (f.header i hi), h2.trans f.classes, h3.trans f.blocks,
      h4.trans f.entities, h5.trans f.objects, h6.trans f.thumbnail, ?_⟩
    rw [List.flatMap_cons]
    exact f.loads.trans h7

theorem fill_skip {p d d' : Drawing Img} {ts : List TName} (h : p.fill ts d = .ok d') {t : TName}
    (ht : t ∉ ts) (hl : t ≠ .lineType) : d'.tables t = d.tables t := by
  induction ts generalizing d with
  | nil => cases h; rfl
  | cons t' ts ih =>
    obtain ⟨d1, f, h⟩ := fill_cons h
    rw [List.mem_cons, not_or] at ht
    exact (ih h ht.2).trans (f.same t ht.1 (.inl hl))

theorem fill_one {p d d' : Drawing Img} {ts : List TName} (h : p.fill ts d = .ok d')
    (hn : ts.Nodup) {t : TName} (ht : t ∈ ts) (hl : t ≠ .lineType) :
    ∃ ys, d'.tables t = d.tables t ++ ys ∧ List.Forall₂ t.Handled (p.tables t) ys := by
  induction ts generalizing d with
  | nil => cases ht
  | cons t' ts ih =>
    obtain ⟨d1, f, h'⟩ := fill_cons h
    obtain ⟨hn1, hn2⟩ := List.nodup_cons.mp hn
    by_cases he : t = t'
    · subst he
      obtain ⟨ys, e, hf⟩ := f.self
      exact ⟨ys, by rw [fill_skip h' hn1 hl, e], hf⟩
    · obtain ⟨ys, e, hf⟩ := ih h' hn2 ((List.mem_cons.mp ht).resolve_left he)
      exact ⟨ys, by rw [e, f.same t he (.inl hl)], hf⟩

theorem fill_extends {p d d' : Drawing Img} {ts : List TName} (h : p.fill ts d = .ok d')
    (ht : .lineType ∉ ts) : Extends d d' .lineType := by
  induction ts generalizing d with
  | nil => cases h; exact .of_eq rfl
  | cons t' ts ih =>
    obtain ⟨d1, f, h⟩ := fill_cons h
    rw [List.mem_cons, not_or] at ht
    exact (f.lineTypes (Ne.symm ht.1)).trans (ih h ht.2)

theorem fill_lineTypes {p d d' : Drawing Img} {ts ts' : List TName}
    (h : p.fill (ts ++ .lineType :: ts') d = .ok d') (h1 : ∀ t ∈ ts, t ≠ .layer ∧ t ≠ .lineType)
    (h2 : .lineType ∉ ts') : ∃ d1 ys, d1.tables .lineType = d.tables .lineType ++ ys ∧
      List.Forall₂ (TName.Handled .lineType) (p.tables .lineType) ys ∧ Extends d1 d' .lineType := by
  induction ts generalizing d with
  | nil =>
    obtain ⟨d1, f, h⟩ := fill_cons h
    obtain ⟨ys, e, hf⟩ := f.self
    exact ⟨d1, ys, e, hf, fill_extends h h2⟩
  | cons t' ts ih =>
    obtain ⟨d1, f, h⟩ := fill_cons h
    obtain ⟨e1, e2⟩ := h1 t' List.mem_cons_self
    obtain ⟨d2, ys, e, hf, hx⟩ := ih h fun t ht => h1 t (List.mem_cons_of_mem _ ht)
    exact ⟨d2, ys, by rw [e, f.same .lineType (Ne.symm e2) (.inr e1)], hf, hx⟩

theorem handled_name {t : TName} {x y : t.Item} (h : t.Handled x y) : t.name y = t.name x := by
  unfold TName.Handled at h
  split at h
  · obtain ⟨hd, rfl⟩ := h
    exact t.name_setHandle x hd
  · rw [h]

theorem handled_has {p d : Drawing Img} {t : TName} {ys : List t.Item} (h : d.tables t = ys)
    (hf : List.Forall₂ t.Handled (p.tables t) ys) (s : Str) : d.has t s = p.has t s := by
  have : ∀ xs : List t.Item, List.Forall₂ t.Handled xs ys →
      (ys.any fun x => t.name x == s) = xs.any fun x => t.name x == s := by
    clear hf h
    intro xs hxs
    induction hxs with
    | nil => rfl
    | cons hx _ ih => rw [List.any_cons, List.any_cons, ih, handled_name hx]
  rw [has, h, this _ hf]
  rfl

/-! ### Blocks -/

/-- What adding blocks, entities and objects does to the rest. -/
structure Adds (d d' : Drawing Img) : Prop where
  header : ∀ i, i ≠ 141 → d'.header i = d.header i
  classes : d'.classes = d.classes
  thumbnail : d'.thumbnail = d.thumbnail
  tables : ∀ t, t ≠ .blockRecord → Extends d d' t

namespace Adds

theorem refl (d : Drawing Img) : Adds d d := ⟨fun _ _ => rfl, rfl, rfl, fun _ _ => .of_eq rfl⟩

theorem trans {d d' d'' : Drawing Img} (g : Adds d d') (g' : Adds d' d'') : Adds d d'' :=
  ⟨fun i hi => (g'.header i hi).trans (g.header i hi), g'.classes.trans g.classes,
    g'.thumbnail.trans g.thumbnail, fun t ht => (g.tables t ht).trans (g'.tables t ht)⟩

end Adds

theorem Grows.adds {d d' : Drawing Img} (g : Grows d d') : Adds d d' :=
  ⟨g.header, g.classes, g.thumbnail, fun t _ => g.extends t⟩

theorem addBlockNoHandle_more {d d' : Drawing Img} {b b' : Block}
    (h : d.addBlockNoHandle b = .ok (b', d')) :
    Adds d d' ∧ d'.entities = d.entities ∧ d'.objects = d.objects ∧
      d'.blocks = d.blocks ++ [b'] ∧
      ∃ hd, d'.tables .blockRecord = d.tables .blockRecord ++
        [TName.setHandle .blockRecord (TName.named .blockRecord b.name) hd] := by
  obtain ⟨d1, h1, h⟩ := bind_ok h
  obtain ⟨d2, h2, h⟩ := bind_ok h
  obtain ⟨⟨y, d3⟩, h3, h⟩ := bind_ok h
  obtain ⟨⟨es, d4⟩, h4, h⟩ := bind_ok h
  cases h
  obtain ⟨g1, -⟩ := ensureAll_ok h1
  obtain ⟨g2, -⟩ := ensureAll_ok h2
  obtain ⟨ht, -⟩ := entityHandles_ok h4
  have o3 := add_objects h3
  obtain ⟨hd, e1, e2, hn, rfl, g3, e3, rfl⟩ := add_ok h3
  have g := g1.trans (g2.trans ((grows_next hn).trans g3))
  have hs := ht.same
  have et : d4.tables = (e2.push .blockRecord
      (TName.setHandle .blockRecord (TName.named .blockRecord b.name) hd)).tables := by rw [hs]
  refine ⟨⟨fun i hi => (ht.header i hi).trans (g.header i hi), ?_, ?_, fun t hne => ?_⟩, ?_, ?_, ?_,
    hd, ?_⟩
  · change d4.classes = _
    rw [hs]
    exact g.classes
  · change d4.thumbnail = _
    rw [hs]
    exact g.thumbnail
  · obtain ⟨new, e, r⟩ := g.extends t
    refine ⟨new, ?_, r⟩
    change d4.tables t = _
    rw [et, push, tables_set_ne _ _ (Ne.symm hne)]
    exact e
  · change d4.entities = _
    rw [hs]
    exact g.entities
  · change d4.objects = _
    rw [hs]
    exact o3.trans ((ensureAll_objects h2).trans (ensureAll_objects h1))
  · change d4.blocks ++ _ = _
    rw [hs]
    congr 1
    exact g.blocks
  · change d4.tables _ = _
    rw [et, push, tables_set, e3, ensureAll_tables h2 (by decide) (.inl (by decide)),
      ensureAll_tables h1 (by decide) (.inl (by decide))]

theorem addReadBlock_ok {d d' : Drawing Img} {b : Block} (h : d.addReadBlock b = .ok d') :
    ∃ b', Block.Handled b b' ∧ Adds d d' ∧ d'.entities = d.entities ∧ d'.objects = d.objects ∧
      d'.blocks = d.blocks ++ [b'] ∧
      (∃ hd, d'.tables .blockRecord = d.tables .blockRecord ++
        [TName.setHandle .blockRecord (TName.named .blockRecord b.name) hd]) ∧
      Loads b.handle.proper d d' := by
  unfold addReadBlock at h
  dsimp only at h
  split at h
  · rename_i hz
    obtain ⟨⟨b', d1⟩, h1, h2⟩ := bind_ok h
    cases h2
    refine ⟨b', ?_⟩
    have hg := gains_addBlock (c := fun _ => []) h1 fun _ _ _ => rfl
    obtain ⟨⟨hd, d2⟩, h2, h3⟩ := bind_ok h1
    obtain ⟨m1, m2, m3, m4, m5⟩ := addBlockNoHandle_more h3
    obtain ⟨_, _, _, _, _, _, _, _, _, hf, hb, _⟩ := addBlockNoHandle_ok h3
    have g := grows_next h2
    obtain ⟨rfl, rfl, -⟩ := nextHandle_ok h2
    refine ⟨⟨b'.entities, hf, ?_⟩, g.adds.trans m1, m2, m3, m4, m5, .new hz hg⟩
    rw [if_pos hz]
    exact ⟨_, hb⟩
  · rename_i hz
    obtain ⟨⟨b', d1⟩, h1, h2⟩ := bind_ok h
    cases h2
    refine ⟨b', ?_⟩
    obtain ⟨m1, m2, m3, m4, m5⟩ := addBlockNoHandle_more h1
    obtain ⟨e1, y, e2, e3, g, _, _, ha, ht, hf, hb, hd⟩ := addBlockNoHandle_ok h1
    refine ⟨⟨b'.entities, hf, ?_⟩, m1, m2, m3, m4, m5, ?_⟩
    · rw [if_neg hz]
      exact hb
    · subst hd
      refine Loads.use (.refl d) (g.gains.trans (gains_add ha)) ht rfl fun x => ?_
      have hh : b'.handle = b.handle := by rw [hb]; rfl
      rw [count_blocks, hh, Handle.proper, if_neg hz]
      have hn : b'.entities.flatMap (fun _ => ([] : List Handle)) = [] := by simp
      rw [hn, List.count_nil]
      omega

/-- What adding the blocks does. -/
structure Blocked (bs : List Block) (d d' : Drawing Img) : Prop extends Adds d d' where
  entities : d'.entities = d.entities
  objects : d'.objects = d.objects
  blocks : ∃ bs', d'.blocks = d.blocks ++ bs' ∧ List.Forall₂ Block.Handled bs bs'
  records : ∃ new, d'.tables .blockRecord = d.tables .blockRecord ++ new ∧
    List.Forall₂ (fun (b : Block) x =>
      ∃ h, x = TName.setHandle .blockRecord (TName.named .blockRecord b.name) h) bs new
  loads : Loads (bs.flatMap fun b => b.handle.proper) d d'

theorem blocked {bs : List Block} {d d' : Drawing Img} (h : bs.foldlM addReadBlock d = .ok d') :
    Blocked bs d d' := by
  induction bs generalizing d with
  | nil =>
    cases h
    exact ⟨.refl _, rfl, rfl, ⟨[], by simp, .nil⟩, ⟨[], by simp, .nil⟩, .refl _⟩
  | cons b bs ih =>
    rw [List.foldlM_cons] at h
    obtain ⟨d1, h1, h2⟩ := bind_ok h
    obtain ⟨b', a1, a2, a3, a4, a5, ⟨hd, a6⟩, a7⟩ := addReadBlock_ok h1
    have f := ih h2
    obtain ⟨bs', e1, e2⟩ := f.blocks
    obtain ⟨new, e3, e4⟩ := f.records
    refine ⟨a2.trans f.toAdds, f.entities.trans a3, f.objects.trans a4,
      ⟨b' :: bs', by rw [e1, a5, List.append_assoc]; rfl, .cons a1 e2⟩,
      ⟨_ :: new, by rw [e3, a6, List.append_assoc]; rfl, .cons ⟨hd, rfl⟩ e4⟩, ?_⟩
    rw [List.flatMap_cons]
    exact a7.trans f.loads

/-! ### Objects -/

theorem addObjectNoHandle_records {d d' : Drawing Img} {o : Object}
    (h : d.addObjectNoHandle o = .ok d') : d'.tables .blockRecord = d.tables .blockRecord := by
  obtain ⟨d1, h1, h⟩ := bind_ok h
  obtain ⟨d2, h2, h⟩ := bind_ok h
  obtain ⟨d3, h3, h⟩ := bind_ok h
  obtain ⟨d4, h4, h⟩ := bind_ok h
  cases h
  change d4.tables _ = _
  rw [ensureAll_tables h4 (by decide) (.inl (by decide)),
    ensureAll_tables h3 (by decide) (.inl (by decide)),
    ensureAll_tables h2 (by decide) (.inl (by decide)),
    ensureAll_tables h1 (by decide) (.inl (by decide))]

theorem addObject_records {d d' : Drawing Img} {o o' : Object} (h : d.addObject o = .ok (o', d')) :
    d'.tables .blockRecord = d.tables .blockRecord := by
  obtain ⟨⟨hd, d1⟩, h1, h⟩ := bind_ok h
  obtain ⟨d2, h2, h⟩ := bind_ok h
  cases h
  rw [addObjectNoHandle_records h2, next_tables h1]

theorem addReadObject_ok {d d' : Drawing Img} {o : Object} (h : d.addReadObject o = .ok d') :
    ∃ o', Object.Handled o o' ∧ Adds d d' ∧ d'.entities = d.entities ∧ d'.blocks = d.blocks ∧
      d'.objects = d.objects ++ [o'] ∧ d'.tables .blockRecord = d.tables .blockRecord ∧
      Loads o.handle.proper d d' := by
  unfold addReadObject at h
  unfold Object.Handled
  split at h
  · rename_i hz
    obtain ⟨⟨o', d1⟩, h1, h2⟩ := bind_ok h
    cases h2
    have hr := addObject_records h1
    have hg := gains_addObject (c := fun _ => []) h1
    obtain ⟨hd, d2, d3, hn, rfl, g, ho, -, rfl⟩ := addObject_ok h1
    have g' := (grows_next hn).trans g
    refine ⟨o.setHandle hd, by rw [if_pos hz]; exact ⟨hd, rfl⟩,
      ⟨g'.header, g'.classes, g'.thumbnail, fun t _ => g'.extends t⟩, g'.entities, g'.blocks, ?_, hr,
      .new hz hg⟩
    change d3.objects ++ _ = _
    rw [ho]
  · rename_i hz
    have hr := addObjectNoHandle_records h
    obtain ⟨d1, g, ho, -, rfl⟩ := addObjectNoHandle_ok h
    refine ⟨o, by rw [if_neg hz], ⟨g.header, g.classes, g.thumbnail, fun t _ => g.extends t⟩,
      g.entities, g.blocks, ?_, hr, ?_⟩
    · change d1.objects ++ _ = _
      rw [ho]
    · exact .keep hz g.gains rfl fun x => by rw [count_objects]

/-- What adding the objects does. -/
structure Objected (os : List Object) (d d' : Drawing Img) : Prop extends Adds d d' where
  entities : d'.entities = d.entities
  blocks : d'.blocks = d.blocks
  objects : ∃ os', d'.objects = d.objects ++ os' ∧ List.Forall₂ Object.Handled os os'
  records : d'.tables .blockRecord = d.tables .blockRecord
  loads : Loads (os.flatMap fun o => o.handle.proper) d d'

theorem objected {os : List Object} {d d' : Drawing Img} (h : os.foldlM addReadObject d = .ok d') :
    Objected os d d' := by
  induction os generalizing d with
  | nil =>
    cases h
    exact ⟨.refl _, rfl, rfl, ⟨[], by simp, .nil⟩, rfl, .refl _⟩
  | cons o os ih =>
    rw [List.foldlM_cons] at h
    obtain ⟨d1, h1, h2⟩ := bind_ok h
    obtain ⟨o', a1, a2, a3, a4, a5, a6, a7⟩ := addReadObject_ok h1
    have f := ih h2
    obtain ⟨os', e1, e2⟩ := f.objects
    refine ⟨a2.trans f.toAdds, f.entities.trans a3, f.blocks.trans a4,
      ⟨o' :: os', by rw [e1, a5, List.append_assoc]; rfl, .cons a1 e2⟩, f.records.trans a6, ?_⟩
    rw [List.flatMap_cons]
    exact a7.trans f.loads

/-! ### Entities -/

theorem ensureMLineStyle_objects {d d' : Drawing Img} {s : Option Str}
    (h : d.ensureMLineStyle s = .ok d') : d'.tables .blockRecord = d.tables .blockRecord ∧
      ((d'.objects = d.objects ∧ ∀ n, s = some n → ∃ o ∈ d.objects, o.styleName = some n) ∨
        ∃ n hd, s = some n ∧
        d'.objects = d.objects ++ [(Object.mlineStyle n).setHandle hd] ∧
        ∀ o ∈ d.objects, o.styleName ≠ some n) := by
  cases s with
  | none =>
    cases h
    exact ⟨rfl, .inl ⟨rfl, fun n hn => nomatch hn⟩⟩
  | some n =>
    rw [ensureMLineStyle] at h
    split at h
    · rename_i hs
      cases h
      refine ⟨rfl, .inl ⟨rfl, fun m hm => ?_⟩⟩
      cases hm
      simpa only [List.any_eq_true, beq_iff_eq] using hs
    · rename_i hs
      obtain ⟨⟨y, d1⟩, h1, h2⟩ := bind_ok h
      cases h2
      refine ⟨addObject_records h1, .inr ?_⟩
      obtain ⟨hd, d2, d3, hn, rfl, g, ho, -, rfl⟩ := addObject_ok h1
      refine ⟨n, hd, rfl, ?_, fun o hm hc => hs ?_⟩
      · change d3.objects ++ _ = _
        rw [ho]
      · simp only [List.any_eq_true, beq_iff_eq]
        exact ⟨o, hm, hc⟩

/-- What becomes of the objects when an entity is added. -/
def Styled (s : Option Str) (d d' : Drawing Img) : Prop :=
  d'.tables .blockRecord = d.tables .blockRecord ∧
    ((d'.objects = d.objects ∧ ∀ n, s = some n → ∃ o ∈ d.objects, o.styleName = some n) ∨
      ∃ n hd, s = some n ∧
      d'.objects = d.objects ++ [(Object.mlineStyle n).setHandle hd] ∧
      ∀ o ∈ d.objects, o.styleName ≠ some n)

theorem addEntityNoHandle_objects {d d' : Drawing Img} {e : Entity}
    (h : d.addEntityNoHandle e = .ok d') : Styled e.mlineStyle d d' := by
  obtain ⟨d1, h1, h⟩ := bind_ok h
  obtain ⟨d2, h2, h⟩ := bind_ok h
  obtain ⟨d3, h3, h⟩ := bind_ok h
  obtain ⟨d4, h4, h⟩ := bind_ok h
  obtain ⟨d5, h5, h⟩ := bind_ok h
  cases h
  obtain ⟨m1, m2⟩ := ensureMLineStyle_objects h1
  have eo : d5.objects = d1.objects := (ensureAll_objects h5).trans ((ensure_objects h4).trans
    ((ensure_objects h3).trans (ensureAll_objects h2)))
  refine ⟨?_, ?_⟩
  · change d5.tables _ = _
    rw [ensureAll_tables h5 (by decide) (.inl (by decide)),
      ensure_tables h4 (by decide) (.inl (by decide)),
      ensure_tables h3 (by decide) (.inl (by decide)),
      ensureAll_tables h2 (by decide) (.inl (by decide)), m1]
  · change (d5.objects = _ ∧ _) ∨ ∃ n hd, _ ∧ d5.objects = _ ∧ _
    rw [eo]
    exact m2

theorem attHandles_bare {as as' : List Att} {d d' : Drawing Img}
    (h : attHandles as d = .ok (as', d')) :
    (as'.map fun a => { a with handle := 0#64 }) = as.map fun a => { a with handle := 0#64 } := by
  induction as generalizing d as' with
  | nil =>
    cases h
    rfl
  | cons a as ih =>
    obtain ⟨⟨hd, d1⟩, h1, h⟩ := bind_ok h
    obtain ⟨⟨bs, d2⟩, h2, h⟩ := bind_ok h
    cases h
    rw [List.map_cons, List.map_cons, ih h2]

theorem vertHandles_bare {as as' : List Vert} {d d' : Drawing Img}
    (h : vertHandles as d = .ok (as', d')) :
    (as'.map fun a => { a with handle := 0#64 }) = as.map fun a => { a with handle := 0#64 } := by
  induction as generalizing d as' with
  | nil =>
    cases h
    rfl
  | cons a as ih =>
    obtain ⟨⟨hd, d1⟩, h1, h⟩ := bind_ok h
    obtain ⟨⟨bs, d2⟩, h2, h⟩ := bind_ok h
    cases h
    rw [List.map_cons, List.map_cons, ih h2]

theorem childHandles_bare {d d' : Drawing Img} {e e' : Entity}
    (h : d.childHandles e = .ok (e', d')) : e'.extra.unhandled = e.extra.unhandled := by
  unfold childHandles at h
  split at h
  · obtain ⟨⟨s, d1⟩, h1, h⟩ := bind_ok h
    obtain ⟨⟨as, d2⟩, h2, h⟩ := bind_ok h
    cases h
    simp only [Extra.unhandled, attHandles_bare h2]
  · split at h
    · obtain ⟨⟨s, d1⟩, h1, h⟩ := bind_ok h
      obtain ⟨⟨as, d2⟩, h2, h⟩ := bind_ok h
      cases h
      simp only [Extra.unhandled, vertHandles_bare h2]
    · cases h
      rfl

theorem mlineStyle_flat {e e' : Entity} (h : e'.toFlat = e.toFlat) : e'.mlineStyle = e.mlineStyle := by
  obtain ⟨f, x⟩ := e
  obtain ⟨f', x'⟩ := e'
  replace h : f' = f := h
  subst h
  obtain ⟨k, n, e⟩ := f'
  cases k <;> rfl

theorem mlineStyle_setHandle (e : Entity) (h : Handle) : (e.setHandle h).mlineStyle = e.mlineStyle := by
  obtain ⟨⟨k, n, e⟩, x⟩ := e
  cases k <;> rfl

theorem addReadEntity_ok {d d' : Drawing Img} {e : Entity} (h : d.addReadEntity e = .ok d') :
    ∃ e', Entity.Handled e e' ∧ Adds d d' ∧ d'.entities = d.entities ++ [e'] ∧
      d'.blocks = d.blocks ∧ Styled e.mlineStyle d d' ∧ Loads e.handle.proper d d' := by
  unfold addReadEntity at h
  unfold Entity.Handled
  split at h
  · rename_i hz
    obtain ⟨⟨e', d1⟩, h1, h2⟩ := bind_ok h
    cases h2
    have hg := gains_addEntity (c := fun _ => []) h1 fun _ => .inl rfl
    obtain ⟨⟨hd, d2⟩, k1, k⟩ := bind_ok h1
    obtain ⟨⟨e2, d3⟩, k2, k⟩ := bind_ok k
    obtain ⟨d4, k3, k⟩ := bind_ok k
    cases k
    obtain ⟨fs, ht, hf, hu⟩ := childHandles_ok k2
    have hst := addEntityNoHandle_objects k3
    rw [mlineStyle_flat hf, mlineStyle_setHandle] at hst
    obtain ⟨d5, g, hr, rfl⟩ := addEntityNoHandle_ok k3
    have g' := (grows_next k1).trans (ht.grows.trans g)
    have hb := childHandles_bare k2
    have hs := ht.same
    refine ⟨e', by rw [if_pos hz]; exact ⟨hd, hf, hb⟩,
      ⟨g'.header, g'.classes, g'.thumbnail, fun t _ => g'.extends t⟩, ?_, g'.blocks, ?_, .new hz hg⟩
    · change d5.entities ++ _ = _
      rw [g'.entities]
    · have e1 : d3.objects = d.objects := by
        obtain ⟨-, rfl, -⟩ := nextHandle_ok k1
        rw [hs]
      have e2 : d3.tables = d.tables := by
        obtain ⟨-, rfl, -⟩ := nextHandle_ok k1
        rw [hs]
      unfold Styled at hst ⊢
      rw [e1, e2] at hst
      exact hst
  · rename_i hz
    have hst := addEntityNoHandle_objects h
    obtain ⟨d1, g, hr, rfl⟩ := addEntityNoHandle_ok h
    refine ⟨e, by rw [if_neg hz], ⟨g.header, g.classes, g.thumbnail, fun t _ => g.extends t⟩, ?_,
      g.blocks, hst, ?_⟩
    · change d1.entities ++ _ = _
      rw [g.entities]
    · exact .keep hz g.gains rfl fun x => by rw [count_entities]; simp

/-- What adding the entities does. -/
structure Entitied (es : List Entity) (d d' : Drawing Img) : Prop extends Adds d d' where
  entities : ∃ es', d'.entities = d.entities ++ es' ∧ List.Forall₂ Entity.Handled es es'
  blocks : d'.blocks = d.blocks
  objects : ∃ new, d'.objects = d.objects ++ new ∧ (new.map Object.styleName).Nodup ∧
    (∀ o ∈ new, (∀ o' ∈ d.objects, o'.styleName ≠ o.styleName) ∧
      ∃ e ∈ es, ∃ s h, e.mlineStyle = some s ∧ o = (Object.mlineStyle s).setHandle h) ∧
    ∀ e ∈ es, ∀ s, e.mlineStyle = some s → ∃ o ∈ d.objects ++ new, o.styleName = some s
  records : d'.tables .blockRecord = d.tables .blockRecord
  loads : Loads (es.flatMap fun e => e.handle.proper) d d'

theorem entitied {es : List Entity} {d d' : Drawing Img} (h : es.foldlM addReadEntity d = .ok d') :
    Entitied es d d' := by
  induction es generalizing d with
  | nil =>
    cases h
    exact ⟨.refl _, ⟨[], by simp, .nil⟩, rfl, ⟨[], by simp⟩, rfl, .refl _⟩
  | cons e es ih =>
    rw [List.foldlM_cons] at h
    obtain ⟨d1, h1, h2⟩ := bind_ok h
    obtain ⟨e', a1, a2, a3, a4, ⟨a5, a6⟩, a7⟩ := addReadEntity_ok h1
    have f := ih h2
    obtain ⟨es', e1, e2⟩ := f.entities
    refine ⟨a2.trans f.toAdds, ⟨e' :: es', by rw [e1, a3, List.append_assoc]; rfl, .cons a1 e2⟩,
      f.blocks.trans a4, ?_, f.records.trans a5, ?_⟩
    · obtain ⟨new, k1, k2, k3, k4⟩ := f.objects
      rcases a6 with ⟨a6, has⟩ | ⟨n, hd, hn, a6, hne⟩
      · rw [a6] at k1 k3 k4
        refine ⟨new, k1, k2, fun o ho => ⟨(k3 o ho).1, ?_⟩, fun x hx s hs => ?_⟩
        · obtain ⟨x, hx, r⟩ := (k3 o ho).2
          exact ⟨x, List.mem_cons_of_mem _ hx, r⟩
        · rcases List.mem_cons.mp hx with rfl | hx
          · obtain ⟨o, ho, e⟩ := has s hs
            exact ⟨o, List.mem_append_left _ ho, e⟩
          · exact k4 x hx s hs
      · rw [a6] at k1 k3 k4
        refine ⟨(Object.mlineStyle n).setHandle hd :: new, by rw [k1]; simp, ?_, fun o ho => ?_,
          fun x hx s hs => ?_⟩
        · rw [List.map_cons, List.nodup_cons]
          refine ⟨fun hm => ?_, k2⟩
          obtain ⟨o, ho, hs⟩ := List.mem_map.mp hm
          exact (k3 o ho).1 _ (List.mem_append_right _ (List.mem_singleton_self _)) hs.symm
        · rcases List.mem_cons.mp ho with rfl | ho
          · exact ⟨fun o' ho' => hne o' ho', e, List.mem_cons_self, n, hd, hn, rfl⟩
          · refine ⟨fun o' ho' => (k3 o ho).1 o' (List.mem_append_left _ ho'), ?_⟩
            obtain ⟨x, hx, r⟩ := (k3 o ho).2
            exact ⟨x, List.mem_cons_of_mem _ hx, r⟩
        · rcases List.mem_cons.mp hx with rfl | hx
          · rw [hn] at hs
            cases hs
            exact ⟨_, List.mem_append_right _ List.mem_cons_self, rfl⟩
          · have := k4 x hx s hs
            rwa [List.append_assoc] at this
    · rw [List.flatMap_cons]
      exact a7.trans f.loads

/-! ### All together -/

/-- The handles in a file that are not null. -/
def fileHandles (p : Drawing Img) : List Handle :=
  (TName.all.flatMap fun t => (p.tables t).flatMap fun x => (t.handle x).proper) ++
    (p.blocks.flatMap (fun b => b.handle.proper) ++ (p.entities.flatMap (fun e => e.handle.proper) ++
      p.objects.flatMap fun o => o.handle.proper))

theorem assemble_ok {p d : Drawing Img} (h : p.assemble = .ok d) :
    p.Completed d ∧ Loads p.fileHandles p.outline d := by
  unfold assemble at h
  obtain ⟨d1, h1, h⟩ := bind_ok h
  obtain ⟨d2, h2, h⟩ := bind_ok h
  obtain ⟨d3, h3, h⟩ := bind_ok h
  obtain ⟨d4, h4, h⟩ := bind_ok h
  cases h
  obtain ⟨r1, r2, r3, r4, r5, r6, r7⟩ := fill_rest h1
  have f2 := blocked h2
  have f3 := entitied h3
  have f4 := objected h4
  have f : Adds d1 d4 := f2.toAdds.trans (f3.toAdds.trans f4.toAdds)
  have hl : Loads p.fileHandles p.outline d4 := r7.trans (f2.loads.trans (f3.loads.trans f4.loads))
  refine ⟨⟨fun i hi => (f.header i hi).trans (r1 i hi), f.classes.trans r2, fun t ht => ?_, ?_, ?_, ?_,
    ?_, rfl⟩, ⟨hl.next, hl.fresh⟩⟩
  · by_cases hlt : t = .lineType
    · subst hlt
      obtain ⟨e1, ys, k1, k2, k3⟩ := fill_lineTypes (ts := [.appId, .blockRecord, .dimStyle])
        (ts' := [.layer, .style, .ucs, .view, .viewPort]) h1 (by decide) (by decide)
      replace k1 : e1.tables .lineType = ys := k1
      obtain ⟨new, n1, n2, n3⟩ := k3.trans (f.tables _ ht)
      refine ⟨ys, new, by rw [← k1]; exact n1, k2, n2, fun x hx => ?_⟩
      rw [← handled_has k1 k2]
      exact n3 x hx
    · obtain ⟨ys, k1, k2⟩ := fill_one h1 (by decide) (TName.mem_all t) hlt
      replace k1 : d1.tables t = ys := k1
      obtain ⟨new, n1, n2, n3⟩ := f.tables _ ht
      refine ⟨ys, new, by rw [← k1]; exact n1, k2, n2, fun x hx => ?_⟩
      rw [← handled_has k1 k2]
      exact n3 x hx
  · obtain ⟨ys, k1, k2⟩ := fill_one h1 (by decide) (TName.mem_all .blockRecord) (by decide)
    replace k1 : d1.tables .blockRecord = ys := k1
    obtain ⟨new, n1, n2⟩ := f2.records
    refine ⟨ys, new, ?_, k2, n2⟩
    change d4.tables _ = _
    rw [f4.records, f3.records, n1, k1]
  · obtain ⟨bs, n1, n2⟩ := f2.blocks
    have : d4.blocks = bs := by
      rw [f4.blocks, f3.blocks, n1, r3]
      rfl
    change List.Forall₂ _ _ d4.blocks
    rw [this]
    exact n2
  · obtain ⟨es, n1, n2⟩ := f3.entities
    have : d4.entities = es := by
      rw [f4.entities, n1, f2.entities, r4]
      rfl
    change List.Forall₂ _ _ d4.entities
    rw [this]
    exact n2
  · obtain ⟨new, n1, n2, n3, n6⟩ := f3.objects
    obtain ⟨os, n4, n5⟩ := f4.objects
    have e : d2.objects = [] := f2.objects.trans r5
    rw [e] at n6
    refine ⟨new, os, ?_, n5, n2, fun o ho => (n3 o ho).2, n6⟩
    change d4.objects = _
    rw [n4, n1, e]
    rfl

end Drawing

end Dxf
