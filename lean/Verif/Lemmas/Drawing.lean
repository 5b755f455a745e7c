import Verif.Spec.Drawing
import Verif.Lemmas.Record
import Mathlib.Data.List.Forall2

/-! Lemmas about the operations on a drawing. -/

namespace Dxf

namespace TName

theorem name_setHandle (t : TName) (x : t.Item) (h : Handle) : t.name (t.setHandle x h) = t.name x := by
  cases t <;> rfl

theorem handle_setHandle (t : TName) (x : t.Item) (h : Handle) : t.handle (t.setHandle x h) = h := by
  cases t <;> rfl

theorem name_named (t : TName) (s : Str) : t.name (t.named s) = s := by
  cases t <;> rfl

theorem handle_normalize (t : TName) (x : t.Item) : t.handle (t.normalize x) = t.handle x := by
  cases t <;> rfl

theorem name_normalize (t : TName) (x : t.Item) : t.name (t.normalize x) = t.name x := by
  cases t <;> rfl

theorem mem_all (t : TName) : t ∈ all := by cases t <;> decide

end TName

theorem Rec.common_set0 {ds : List Decl} (r : Rec (commonDecls ++ ds)) (h : Handle) :
    ((r.set 0 h).common 0 : Handle) = h := rfl

namespace Entity

theorem handle_setHandle (e : Entity) (h : Handle) : (e.setHandle h).handle = h := rfl
theorem layer_setHandle (e : Entity) (h : Handle) : (e.setHandle h).layer = e.layer := rfl
theorem handle_normalize (e : Entity) : e.normalize.handle = e.handle := rfl

end Entity

namespace Drawing

variable {Img : Type}

/-! ### Tables -/

theorem tables_set (d : Drawing Img) (t : TName) (l : List t.Item) : (d.setTable t l).tables t = l := by
  simp [setTable]

theorem tables_set_ne (d : Drawing Img) {t t' : TName} (l : List t.Item) (h : t ≠ t') :
    (d.setTable t l).tables t' = d.tables t' := by
  simp [setTable, h]

theorem has_iff (d : Drawing Img) (t : TName) (s : Str) :
    d.has t s = true ↔ ∃ x ∈ d.tables t, t.name x = s := by
  simp [has]

/-! ### Handles -/

/-- The handles of the items together with some handles of each entity. -/
def handlesOf (c : Entity → List Handle) (d : Drawing Img) : List Handle :=
  d.handles ++ (d.blocks.flatMap fun b => b.entities.flatMap c) ++ d.entities.flatMap c

theorem handlesOf_none (d : Drawing Img) : d.handlesOf (fun _ => []) = d.handles := by
  simp [handlesOf]

theorem handlesOf_deep (d : Drawing Img) : d.handlesOf Entity.childHandles = d.deepHandles := rfl

variable {c : Entity → List Handle}

theorem tables_count (f : (t : TName) → List Handle) (h : Handle) :
    (TName.all.flatMap f).count h = (f .appId).count h + (f .blockRecord).count h +
      (f .dimStyle).count h + (f .lineType).count h + (f .layer).count h + (f .style).count h +
      (f .ucs).count h + (f .view).count h + (f .viewPort).count h := by
  simp [TName.all, List.count_append]
  omega

theorem count_setTable (d : Drawing Img) (t : TName) (l : List t.Item) (h : Handle) :
    ((d.setTable t l).handlesOf c).count h + ((d.tables t).map t.handle).count h =
      (d.handlesOf c).count h + (l.map t.handle).count h := by
  have h1 : (d.setTable t l).blocks = d.blocks := rfl
  have h2 : (d.setTable t l).entities = d.entities := rfl
  have h3 : (d.setTable t l).objects = d.objects := rfl
  simp only [handlesOf, handles, h1, h2, h3, List.count_append, tables_count]
  cases t <;>
  · simp only [tables_set]
    repeat rw [tables_set_ne _ _ (by decide)]
    omega

theorem count_push (d : Drawing Img) (t : TName) (x : t.Item) (h : Handle) :
    ((d.push t x).handlesOf c).count h = (d.handlesOf c).count h + [t.handle x].count h := by
  have := count_setTable (c := c) d t (d.tables t ++ [x]) h
  rw [List.map_append, List.count_append] at this
  simp only [push, List.map_cons, List.map_nil] at this ⊢
  omega

/-! ### Growing -/

/-- `d'` is `d` with default entries for names that were missing, and with multiline styles. -/
structure Grows (d d' : Drawing Img) : Prop where
  header : ∀ i, i ≠ 141 → d'.header i = d.header i
  next : d.next.toNat ≤ d'.next.toNat
  classes : d'.classes = d.classes
  blocks : d'.blocks = d.blocks
  entities : d'.entities = d.entities
  thumbnail : d'.thumbnail = d.thumbnail
  tables : ∀ t, ∃ new, d'.tables t = d.tables t ++ new ∧
    (∀ x ∈ new, d.has t (t.name x) = false ∧
      x = t.setHandle (t.named (t.name x)) (t.handle x)) ∧ (new.map t.name).Nodup
  objects : ∃ new, d'.objects = d.objects ++ new ∧ (∀ o ∈ new, ∃ s,
    o = (Object.mlineStyle s).setHandle o.handle ∧ ∀ o' ∈ d.objects, o'.styleName ≠ some s) ∧
    (new.map Object.styleName).Nodup
  fresh : ∃ fs : List Handle, fs.Nodup ∧
    (∀ h ∈ fs, d.next.toNat ≤ h.toNat ∧ h.toNat < d'.next.toNat) ∧
    ∀ c h, (d'.handlesOf c).count h = (d.handlesOf c).count h + fs.count h

namespace Grows

theorem refl (d : Drawing Img) : Grows d d :=
  ⟨fun _ _ => rfl, Nat.le_refl _, rfl, rfl, rfl, rfl, fun _ => ⟨[], by simp⟩, ⟨[], by simp⟩,
    ⟨[], by simp⟩⟩

theorem has {d d' : Drawing Img} (g : Grows d d') {t : TName} {s : Str} (h : d.has t s = true) :
    d'.has t s = true := by
  obtain ⟨new, hn, -⟩ := g.tables t
  simp only [Drawing.has, hn, List.any_append, Bool.or_eq_true]
  exact .inl h

theorem trans {d d' d'' : Drawing Img} (g : Grows d d') (g' : Grows d' d'') : Grows d d'' := by
  refine ⟨fun i h => (g'.header i h).trans (g.header i h), Nat.le_trans g.next g'.next,
    g'.classes.trans g.classes, g'.blocks.trans g.blocks, g'.entities.trans g.entities,
    g'.thumbnail.trans g.thumbnail, fun t => ?_, ?_, ?_⟩
  · obtain ⟨n, hn, h1, h2⟩ := g.tables t
    obtain ⟨n', hn', h1', h2'⟩ := g'.tables t
    refine ⟨n ++ n', by rw [hn', hn, List.append_assoc], fun x hx => ?_, ?_⟩
    · rcases List.mem_append.mp hx with hx | hx
      · exact h1 x hx
      · refine ⟨?_, (h1' x hx).2⟩
        refine Bool.eq_false_iff.mpr fun hc => ?_
        exact absurd (h1' x hx).1 (by simp [g.has hc])
    · rw [List.map_append, List.nodup_append]
      refine ⟨h2, h2', ?_⟩
      rintro a ha b hb rfl
      obtain ⟨x, hx, rfl⟩ := List.mem_map.mp ha
      obtain ⟨y, hy, hxy⟩ := List.mem_map.mp hb
      have := (h1' y hy).1
      rw [← Bool.not_eq_true, has_iff] at this
      exact this ⟨x, by simp [hn, hx], hxy.symm⟩
  · obtain ⟨n, hn, h1, h2⟩ := g.objects
    obtain ⟨n', hn', h1', h2'⟩ := g'.objects
    refine ⟨n ++ n', by rw [hn', hn, List.append_assoc], fun x hx => ?_, ?_⟩
    · rcases List.mem_append.mp hx with hx | hx
      · exact h1 x hx
      · obtain ⟨s, hs, hne⟩ := h1' x hx
        exact ⟨s, hs, fun o ho => hne o (by simp [hn, ho])⟩
    · rw [List.map_append, List.nodup_append]
      refine ⟨h2, h2', ?_⟩
      rintro a ha b hb rfl
      obtain ⟨x, hx, rfl⟩ := List.mem_map.mp ha
      obtain ⟨y, hy, hxy⟩ := List.mem_map.mp hb
      obtain ⟨s, hs, hne⟩ := h1' y hy
      refine hne x (by simp [hn, hx]) ?_
      rw [← hxy, hs]
      rfl
  · obtain ⟨f, h1, h2, h3⟩ := g.fresh
    obtain ⟨f', h1', h2', h3'⟩ := g'.fresh
    have := g.next
    have := g'.next
    refine ⟨f ++ f', ?_, ?_, ?_⟩
    · rw [List.nodup_append]
      refine ⟨h1, h1', ?_⟩
      rintro a ha b hb rfl
      have := h2 a ha
      have := h2' a hb
      omega
    · intro h hh
      rcases List.mem_append.mp hh with hh | hh
      · have := h2 h hh
        omega
      · have := h2' h hh
        omega
    · intro c h
      rw [h3', h3, List.count_append]
      omega

end Grows

/-- Taking a handle. -/
theorem nextHandle_ok {d d' : Drawing Img} {h : Handle} (hh : d.nextHandle = .ok (h, d')) :
    h = d.next ∧ d' = { d with header := d.header.set 141 (d.next + 1#64) } ∧
      d'.next.toNat = d.next.toNat + 1 := by
  unfold nextHandle at hh
  split at hh
  · cases hh
  · rename_i hne
    cases hh
    refine ⟨rfl, rfl, ?_⟩
    change (d.next + 1#64).toNat = _
    have : d.next.toNat ≠ 2 ^ 64 - 1 := by
      intro hc
      apply hne
      apply BitVec.eq_of_toNat_eq
      simpa using hc
    have := d.next.isLt
    rw [BitVec.toNat_add]
    simp
    omega

theorem handlesOf_header (d : Drawing Img) (h : Header) (c : Entity → List Handle) :
    ({ d with header := h } : Drawing Img).handlesOf c = d.handlesOf c := rfl

theorem grows_next {d d' : Drawing Img} {h : Handle} (hh : d.nextHandle = .ok (h, d')) :
    Grows d d' := by
  obtain ⟨rfl, rfl, hn⟩ := nextHandle_ok hh
  exact ⟨fun i hi => Rec.set_ne _ _ hi, by omega, rfl, rfl, rfl, rfl, fun _ => ⟨[], by simp⟩,
    ⟨[], by simp⟩, ⟨[], by simp [handlesOf_header]⟩⟩

/-- Adding a default entry for a missing name with a new handle. -/
theorem Grows.push {d d1 d2 : Drawing Img} {h : Handle} (hh : d.nextHandle = .ok (h, d1))
    (g : Grows d1 d2) (t : TName) (s : Str) (hs : d2.has t s = false) :
    Grows d (d2.push t (t.setHandle (t.named s) h)) := by
  have g0 := (grows_next hh).trans g
  obtain ⟨rfl, rfl, hn⟩ := nextHandle_ok hh
  have hnx := g.next
  refine ⟨g0.header, g0.next, g0.classes, g0.blocks, g0.entities, g0.thumbnail, fun t' => ?_,
    g0.objects, ?_⟩
  · obtain ⟨n, h1, h2, h3⟩ := g0.tables t'
    by_cases ht : t = t'
    · subst ht
      refine ⟨n ++ [t.setHandle (t.named s) d.next], ?_, ?_, ?_⟩
      · rw [Drawing.push, tables_set, h1, List.append_assoc]
      · intro x hx
        rcases List.mem_append.mp hx with hx | hx
        · exact h2 x hx
        · obtain rfl := List.mem_singleton.mp hx
          rw [TName.name_setHandle, TName.name_named, TName.handle_setHandle]
          refine ⟨?_, rfl⟩
          refine Bool.eq_false_iff.mpr fun hc => ?_
          simp [g0.has hc] at hs
      · rw [List.map_append, List.nodup_append]
        refine ⟨h3, by simp, ?_⟩
        rintro a ha b hb rfl
        simp only [List.map_cons, List.map_nil, TName.name_setHandle, TName.name_named,
          List.mem_singleton] at hb
        subst hb
        obtain ⟨x, hx, hxs⟩ := List.mem_map.mp ha
        rw [← Bool.not_eq_true, has_iff] at hs
        exact hs ⟨x, by simp [h1, hx], hxs⟩
    · exact ⟨n, by rw [Drawing.push, tables_set_ne _ _ ht, h1], h2, h3⟩
  · obtain ⟨f, h1, h2, h3⟩ := g.fresh
    refine ⟨f ++ [d.next], ?_, ?_, ?_⟩
    · rw [List.nodup_append]
      refine ⟨h1, by simp, ?_⟩
      rintro a ha b hb rfl
      have := h2 a ha
      rw [List.mem_singleton.mp hb] at this
      omega
    · intro h hm
      change _ ∧ _ < d2.next.toNat
      rcases List.mem_append.mp hm with hm | hm
      · have := h2 h hm
        omega
      · rw [List.mem_singleton.mp hm]
        omega
    · intro c h
      rw [count_push, h3, handlesOf_header, TName.handle_setHandle, List.count_append]
      omega

theorem bind_ok {α β : Type} {m : Except DxfErr α} {f : α → Except DxfErr β} {b : β}
    (h : (m >>= f) = .ok b) : ∃ a, m = .ok a ∧ f a = .ok b := by
  cases m with
  | error e => cases h
  | ok a => exact ⟨a, rfl, h⟩

theorem has_push (d : Drawing Img) (t : TName) (x : t.Item) : (d.push t x).has t (t.name x) = true := by
  simp [has, push, tables_set]

theorem ensurePlain_ok {d d' : Drawing Img} {t : TName} {s : Str} (h : d.ensurePlain t s = .ok d') :
    Grows d d' ∧ d'.has t s = true ∧ ∀ t', t' ≠ t → d'.tables t' = d.tables t' := by
  unfold ensurePlain at h
  split at h
  · rename_i hs
    cases h
    exact ⟨.refl _, hs, fun _ _ => rfl⟩
  · rename_i hs
    obtain ⟨⟨hd, d1⟩, h1, h2⟩ := bind_ok h
    cases h2
    rw [Bool.not_eq_true] at hs
    have e1 : d1.has t s = false := by
      obtain ⟨-, rfl, -⟩ := nextHandle_ok h1
      exact hs
    refine ⟨Grows.push h1 (.refl _) t s e1, ?_, fun t' ht => ?_⟩
    · have := has_push d1 t (t.setHandle (t.named s) hd)
      rwa [TName.name_setHandle, TName.name_named] at this
    · obtain ⟨-, rfl, -⟩ := nextHandle_ok h1
      exact tables_set_ne _ _ (Ne.symm ht)

theorem addNoHandle_ok {d d' : Drawing Img} {t : TName} {x : t.Item}
    (h : d.addNoHandle t x = .ok d') : ∃ d1, Grows d d1 ∧ d1.tables t = d.tables t ∧
      d' = d1.push t x := by
  cases t
  case layer =>
    obtain ⟨d1, h1, h2⟩ := bind_ok h
    cases h2
    obtain ⟨g, -, ht⟩ := ensurePlain_ok h1
    exact ⟨d1, g, ht _ (by decide), rfl⟩
  all_goals
    cases h
    exact ⟨d, .refl _, rfl, rfl⟩

theorem add_ok {d d' : Drawing Img} {t : TName} {x y : t.Item} (h : d.add t x = .ok (y, d')) :
    ∃ hd d1 d2, d.nextHandle = .ok (hd, d1) ∧ y = t.setHandle x hd ∧ Grows d1 d2 ∧
      d2.tables t = d.tables t ∧ d' = d2.push t y := by
  obtain ⟨⟨hd, d1⟩, h1, h⟩ := bind_ok h
  obtain ⟨d2, h2, h⟩ := bind_ok h
  cases h
  obtain ⟨d3, g, ht, rfl⟩ := addNoHandle_ok h2
  refine ⟨hd, d1, d3, h1, rfl, g, ?_, rfl⟩
  rw [ht]
  obtain ⟨-, rfl, -⟩ := nextHandle_ok h1
  rfl

theorem has_tables {d d' : Drawing Img} {t : TName} (h : d'.tables t = d.tables t) (s : Str) :
    d'.has t s = d.has t s := by
  simp [has, h]

theorem ensure_ok {d d' : Drawing Img} {t : TName} {s : Str} (h : d.ensure t s = .ok d') :
    Grows d d' ∧ d'.has t s = true := by
  unfold ensure at h
  split at h
  · rename_i hs
    cases h
    exact ⟨.refl _, hs⟩
  · rename_i hs
    obtain ⟨⟨y, d1⟩, h1, h2⟩ := bind_ok h
    cases h2
    obtain ⟨hd, d2, d3, hn, rfl, g, ht, rfl⟩ := add_ok h1
    rw [Bool.not_eq_true] at hs
    refine ⟨Grows.push hn g t s (by rw [has_tables ht]; exact hs), ?_⟩
    have := has_push d3 t (t.setHandle (t.named s) hd)
    rwa [TName.name_setHandle, TName.name_named] at this

theorem ensureAll_ok {d d' : Drawing Img} {t : TName} {ss : List Str}
    (h : d.ensureAll t ss = .ok d') : Grows d d' ∧ ∀ s ∈ ss, d'.has t s = true := by
  induction ss generalizing d with
  | nil =>
    cases h
    exact ⟨.refl _, by simp⟩
  | cons s ss ih =>
    rw [ensureAll, List.foldlM_cons] at h
    obtain ⟨d1, h1, h2⟩ := bind_ok h
    obtain ⟨g, hs⟩ := ensure_ok h1
    obtain ⟨g', hs'⟩ := ih h2
    exact ⟨g.trans g', List.forall_mem_cons.mpr ⟨g'.has hs, hs'⟩⟩

theorem ensurePlain_objects {d d' : Drawing Img} {t : TName} {s : Str}
    (h : d.ensurePlain t s = .ok d') : d'.objects = d.objects := by
  unfold ensurePlain at h
  split at h
  · cases h
    rfl
  · obtain ⟨⟨hd, d1⟩, h1, h2⟩ := bind_ok h
    cases h2
    obtain ⟨-, rfl, -⟩ := nextHandle_ok h1
    rfl

theorem add_objects {d d' : Drawing Img} {t : TName} {x y : t.Item} (h : d.add t x = .ok (y, d')) :
    d'.objects = d.objects := by
  obtain ⟨⟨hd, d1⟩, h1, h⟩ := bind_ok h
  obtain ⟨d2, h2, h⟩ := bind_ok h
  cases h
  obtain ⟨-, rfl, -⟩ := nextHandle_ok h1
  cases t
  case layer =>
    obtain ⟨d3, h3, h4⟩ := bind_ok h2
    cases h4
    exact (ensurePlain_objects h3 :)
  all_goals
    cases h2
    rfl

theorem ensure_objects {d d' : Drawing Img} {t : TName} {s : Str} (h : d.ensure t s = .ok d') :
    d'.objects = d.objects := by
  unfold ensure at h
  split at h
  · cases h
    rfl
  · obtain ⟨⟨y, d1⟩, h1, h2⟩ := bind_ok h
    cases h2
    exact add_objects h1

theorem ensureAll_objects {d d' : Drawing Img} {t : TName} {ss : List Str}
    (h : d.ensureAll t ss = .ok d') : d'.objects = d.objects := by
  induction ss generalizing d with
  | nil =>
    cases h
    rfl
  | cons s ss ih =>
    rw [ensureAll, List.foldlM_cons] at h
    obtain ⟨d1, h1, h2⟩ := bind_ok h
    exact (ih h2).trans (ensure_objects h1)

theorem addObjectNoHandle_ok {d d' : Drawing Img} {o : Object} (h : d.addObjectNoHandle o = .ok d') :
    ∃ d1, Grows d d1 ∧ d1.objects = d.objects ∧ d1.ObjectRefs o ∧
      d' = { d1 with objects := d1.objects ++ [o] } := by
  obtain ⟨d1, h1, h⟩ := bind_ok h
  obtain ⟨d2, h2, h⟩ := bind_ok h
  obtain ⟨d3, h3, h⟩ := bind_ok h
  obtain ⟨d4, h4, h⟩ := bind_ok h
  cases h
  obtain ⟨g1, r1⟩ := ensureAll_ok h1
  obtain ⟨g2, r2⟩ := ensureAll_ok h2
  obtain ⟨g3, r3⟩ := ensureAll_ok h3
  obtain ⟨g4, r4⟩ := ensureAll_ok h4
  refine ⟨d4, g1.trans (g2.trans (g3.trans g4)), ?_, ⟨?_, ?_, ?_⟩, rfl⟩
  · rw [ensureAll_objects h4, ensureAll_objects h3, ensureAll_objects h2, ensureAll_objects h1]
  · exact fun s hs => g4.has (g3.has (g2.has (r1 s hs)))
  · exact fun s hs => ⟨g4.has (g3.has (r2 s (Option.mem_toList.mpr hs))),
      g4.has (r3 s (Option.mem_toList.mpr hs))⟩
  · exact fun s hs => r4 s (Option.mem_toList.mpr hs)

theorem count_objects (d : Drawing Img) (o : Object) (h : Handle) :
    (({ d with objects := d.objects ++ [o] } : Drawing Img).handlesOf c).count h =
      (d.handlesOf c).count h + [o.handle].count h := by
  simp only [handlesOf, handles, List.map_append, List.count_append, List.map_cons, List.map_nil]
  omega

theorem addObject_ok {d d' : Drawing Img} {o o' : Object} (h : d.addObject o = .ok (o', d')) :
    ∃ hd d1 d2, d.nextHandle = .ok (hd, d1) ∧ o' = o.setHandle hd ∧ Grows d1 d2 ∧
      d2.objects = d.objects ∧ d2.ObjectRefs o' ∧ d' = { d2 with objects := d2.objects ++ [o'] } := by
  obtain ⟨⟨hd, d1⟩, h1, h⟩ := bind_ok h
  obtain ⟨d2, h2, h⟩ := bind_ok h
  cases h
  obtain ⟨d3, g, ho, hr, rfl⟩ := addObjectNoHandle_ok h2
  refine ⟨hd, d1, d3, h1, rfl, g, ?_, hr, rfl⟩
  rw [ho]
  obtain ⟨-, rfl, -⟩ := nextHandle_ok h1
  rfl

theorem ensureMLineStyle_ok {d d' : Drawing Img} {s : Option Str}
    (h : d.ensureMLineStyle s = .ok d') :
    Grows d d' ∧ ∀ n ∈ s, ∃ o ∈ d'.objects, o.styleName = some n := by
  cases s with
  | none =>
    cases h
    exact ⟨.refl _, by simp⟩
  | some s =>
    rw [ensureMLineStyle] at h
    split at h
    · rename_i hs
      cases h
      refine ⟨.refl _, fun n hn => ?_⟩
      cases hn
      simpa using hs
    · rename_i hs
      obtain ⟨⟨y, d1⟩, h1, h2⟩ := bind_ok h
      cases h2
      obtain ⟨hd, d2, d3, hn, rfl, g, ho, -, rfl⟩ := addObject_ok h1
      have g0 := (grows_next hn).trans g
      obtain ⟨rfl, rfl, hnx⟩ := nextHandle_ok hn
      have hnx' := g.next
      refine ⟨⟨g0.header, g0.next, g0.classes, g0.blocks, g0.entities, g0.thumbnail, g0.tables,
        ⟨[(Object.mlineStyle s).setHandle d.next], by rw [ho], ?_, by simp⟩, ?_⟩, ?_⟩
      · intro o hm
        obtain rfl := List.mem_singleton.mp hm
        refine ⟨s, rfl, fun o' ho' hc => hs ?_⟩
        simp only [List.any_eq_true, beq_iff_eq]
        exact ⟨o', ho', hc⟩
      · obtain ⟨f, h1, h2, h3⟩ := g.fresh
        refine ⟨f ++ [d.next], ?_, ?_, ?_⟩
        · rw [List.nodup_append]
          refine ⟨h1, by simp, ?_⟩
          rintro a ha b hb rfl
          have := h2 a ha
          rw [List.mem_singleton.mp hb] at this
          omega
        · intro h hm
          change _ ∧ _ < d3.next.toNat
          rcases List.mem_append.mp hm with hm | hm
          · have := h2 h hm
            omega
          · rw [List.mem_singleton.mp hm]
            omega
        · intro c h
          rw [count_objects, h3, handlesOf_header, List.count_append]
          exact Nat.add_assoc _ _ _
      · intro n hn
        cases hn
        exact ⟨_, List.mem_append_right _ (List.mem_singleton_self _), rfl⟩

theorem addEntityNoHandle_ok {d d' : Drawing Img} {e : Entity} (h : d.addEntityNoHandle e = .ok d') :
    ∃ d1, Grows d d1 ∧ d1.EntityRefs e ∧ d' = { d1 with entities := d1.entities ++ [e] } := by
  obtain ⟨d1, h1, h⟩ := bind_ok h
  obtain ⟨d2, h2, h⟩ := bind_ok h
  obtain ⟨d3, h3, h⟩ := bind_ok h
  obtain ⟨d4, h4, h⟩ := bind_ok h
  obtain ⟨d5, h5, h⟩ := bind_ok h
  cases h
  obtain ⟨g1, r1⟩ := ensureMLineStyle_ok h1
  obtain ⟨g2, r2⟩ := ensureAll_ok h2
  obtain ⟨g3, r3⟩ := ensure_ok h3
  obtain ⟨g4, r4⟩ := ensure_ok h4
  obtain ⟨g5, r5⟩ := ensureAll_ok h5
  have g := g2.trans (g3.trans (g4.trans g5))
  refine ⟨d5, g1.trans g, ⟨g5.has (g4.has r3), g5.has r4, ?_, ?_, ?_⟩, rfl⟩
  · intro s hs
    obtain ⟨o, ho, hn⟩ := r1 s hs
    obtain ⟨new, hnew, -⟩ := g.objects
    exact ⟨o, by rw [hnew]; exact List.mem_append_left _ ho, hn⟩
  · exact fun s hs => g5.has (g4.has (g3.has (r2 s (Option.mem_toList.mpr hs))))
  · exact fun s hs => r5 s (Option.mem_toList.mpr hs)

/-! ### Taking handles -/

/-- From `d` to `d'` nothing happens but taking the handles `fs`, perhaps among others. -/
structure Taken (d d' : Drawing Img) (fs : List Handle) : Prop where
  same : d' = { d with header := d'.header }
  header : ∀ i, i ≠ 141 → d'.header i = d.header i
  next : d.next.toNat ≤ d'.next.toNat
  nodup : fs.Nodup
  bounds : ∀ h ∈ fs, d.next.toNat ≤ h.toNat ∧ h.toNat < d'.next.toNat

namespace Taken

theorem refl (d : Drawing Img) : Taken d d [] :=
  ⟨rfl, fun _ _ => rfl, Nat.le_refl _, by simp, by simp⟩

theorem one {d d' : Drawing Img} {h : Handle} (hh : d.nextHandle = .ok (h, d')) : Taken d d' [h] := by
  obtain ⟨rfl, rfl, hn⟩ := nextHandle_ok hh
  refine ⟨rfl, fun i hi => Rec.set_ne _ _ hi, by omega, by simp, fun h hm => ?_⟩
  rw [List.mem_singleton.mp hm]
  omega

theorem trans {d d' d'' : Drawing Img} {fs fs' : List Handle} (a : Taken d d' fs)
    (b : Taken d' d'' fs') : Taken d d'' (fs ++ fs') := by
  have h1 := a.next
  have h2 := b.next
  refine ⟨?_, fun i hi => (b.header i hi).trans (a.header i hi), Nat.le_trans h1 h2, ?_, ?_⟩
  · rw [b.same, a.same]
  · rw [List.nodup_append]
    refine ⟨a.nodup, b.nodup, ?_⟩
    rintro x hx y hy rfl
    have := a.bounds x hx
    have := b.bounds x hy
    omega
  · intro h hm
    rcases List.mem_append.mp hm with hm | hm
    · have := a.bounds h hm
      omega
    · have := b.bounds h hm
      omega

theorem handlesOf {d d' : Drawing Img} {fs : List Handle} (a : Taken d d' fs)
    (c : Entity → List Handle) : d'.handlesOf c = d.handlesOf c := by
  rw [a.same]
  rfl

theorem grows {d d' : Drawing Img} {fs : List Handle} (a : Taken d d' fs) : Grows d d' := by
  have h := a.handlesOf
  have e := a.same
  refine ⟨a.header, a.next, by rw [e], by rw [e], by rw [e], by rw [e],
    fun t => ⟨[], by rw [e]; simp⟩, ⟨[], by rw [e]; simp⟩, ⟨[], by simp [h]⟩⟩

end Taken

/-- From `d` to `d'` no handles occur additionally but new ones. -/
structure Gains (c : Entity → List Handle) (d d' : Drawing Img) : Prop where
  next : d.next.toNat ≤ d'.next.toNat
  fresh : ∃ fs : List Handle, fs.Nodup ∧
    (∀ h ∈ fs, d.next.toNat ≤ h.toNat ∧ h.toNat < d'.next.toNat) ∧
    ∀ h, (d'.handlesOf c).count h ≤ (d.handlesOf c).count h + fs.count h

namespace Gains

theorem of_count {d d' : Drawing Img} (hn : d'.next = d.next)
    (h : ∀ h, (d'.handlesOf c).count h ≤ (d.handlesOf c).count h) : Gains c d d' :=
  ⟨by rw [hn], [], by simpa using h⟩

theorem refl (d : Drawing Img) : Gains c d d := of_count rfl fun _ => Nat.le_refl _

/-- Taking handles, doing something else, taking more handles, and using the handles taken. -/
theorem use {d d1 d2 d3 d' : Drawing Img} {fs fs' : List Handle} (a : Taken d d1 fs)
    (g : Gains c d1 d2) (b : Taken d2 d3 fs') (hn : d'.next = d3.next)
    (h : ∀ h, (d'.handlesOf c).count h ≤ (d3.handlesOf c).count h + fs.count h + fs'.count h) :
    Gains c d d' := by
  obtain ⟨gs, h1, h2, h3⟩ := g.fresh
  have n1 := a.next
  have n2 := g.next
  have n3 := b.next
  refine ⟨by rw [hn]; omega, fs ++ gs ++ fs', ?_, ?_, ?_⟩
  · rw [List.nodup_append, List.nodup_append]
    refine ⟨⟨a.nodup, h1, ?_⟩, b.nodup, ?_⟩
    · rintro x hx y hy rfl
      have := a.bounds x hx
      have := h2 x hy
      omega
    · rintro x hx y hy rfl
      have hb := b.bounds x hy
      rcases List.mem_append.mp hx with hx | hx
      · have := a.bounds x hx
        omega
      · have := h2 x hx
        omega
  · intro x hx
    rw [hn]
    rcases List.mem_append.mp hx with hx | hx
    · rcases List.mem_append.mp hx with hx | hx
      · have := a.bounds x hx
        omega
      · have := h2 x hx
        omega
    · have := b.bounds x hx
      omega
  · intro x
    have e1 := h x
    have e2 := h3 x
    rw [b.handlesOf] at e1
    rw [a.handlesOf] at e2
    rw [List.count_append, List.count_append]
    omega

theorem trans {d d' d'' : Drawing Img} (g : Gains c d d') (g' : Gains c d' d'') : Gains c d d'' := by
  obtain ⟨fs, h1, h2, h3⟩ := g.fresh
  obtain ⟨gs, h1', h2', h3'⟩ := g'.fresh
  have n1 := g.next
  have n2 := g'.next
  refine ⟨by omega, fs ++ gs, ?_, ?_, ?_⟩
  · rw [List.nodup_append]
    refine ⟨h1, h1', ?_⟩
    rintro x hx y hy rfl
    have := h2 x hx
    have := h2' x hy
    omega
  · intro x hx
    rcases List.mem_append.mp hx with hx | hx
    · have := h2 x hx
      omega
    · have := h2' x hx
      omega
  · intro x
    have e1 := h3 x
    have e2 := h3' x
    rw [List.count_append]
    omega

end Gains

theorem Grows.gains {d d' : Drawing Img} (g : Grows d d') : Gains c d d' := by
  obtain ⟨fs, h1, h2, h3⟩ := g.fresh
  exact ⟨g.next, fs, h1, h2, fun h => Nat.le_of_eq (h3 c h)⟩

theorem gains_add {d d' : Drawing Img} {t : TName} {x y : t.Item} (h : d.add t x = .ok (y, d')) :
    Gains c d d' := by
  obtain ⟨hd, d1, d2, hn, rfl, g, -, rfl⟩ := add_ok h
  refine Gains.use (.one hn) g.gains (.refl _) rfl fun h => ?_
  rw [count_push, TName.handle_setHandle]
  simp

theorem gains_addObject {d d' : Drawing Img} {o o' : Object} (h : d.addObject o = .ok (o', d')) :
    Gains c d d' := by
  obtain ⟨hd, d1, d2, hn, rfl, g, -, -, rfl⟩ := addObject_ok h
  refine Gains.use (.one hn) g.gains (.refl _) rfl fun h => ?_
  rw [count_objects]
  exact Nat.le_add_right _ _

theorem attHandles_ok {as as' : List Att} {d d' : Drawing Img} (h : attHandles as d = .ok (as', d')) :
    ∃ fs, Taken d d' fs ∧ ((∀ a ∈ as, a.handle = autoReplaceHandle) → as'.map Att.handle = fs) := by
  induction as generalizing d as' with
  | nil =>
    cases h
    exact ⟨[], .refl _, fun _ => rfl⟩
  | cons a as ih =>
    obtain ⟨⟨hd, d1⟩, h1, h⟩ := bind_ok h
    obtain ⟨⟨bs, d2⟩, h2, h⟩ := bind_ok h
    cases h
    obtain ⟨fs, ht, hf⟩ := ih h2
    simp only [childHandle] at h1
    split at h1
    · refine ⟨[hd] ++ fs, (Taken.one h1).trans ht, fun ha => ?_⟩
      simp [hf fun a hm => ha a (List.mem_cons_of_mem _ hm)]
    · rename_i hne
      cases h1
      exact ⟨fs, ht, fun ha => absurd (ha a List.mem_cons_self) hne⟩

theorem vertHandles_ok {vs vs' : List Vert} {d d' : Drawing Img}
    (h : vertHandles vs d = .ok (vs', d')) :
    ∃ fs, Taken d d' fs ∧ ((∀ a ∈ vs, a.handle = autoReplaceHandle) → vs'.map Vert.handle = fs) := by
  induction vs generalizing d vs' with
  | nil =>
    cases h
    exact ⟨[], .refl _, fun _ => rfl⟩
  | cons a as ih =>
    obtain ⟨⟨hd, d1⟩, h1, h⟩ := bind_ok h
    obtain ⟨⟨bs, d2⟩, h2, h⟩ := bind_ok h
    cases h
    obtain ⟨fs, ht, hf⟩ := ih h2
    simp only [childHandle] at h1
    split at h1
    · refine ⟨[hd] ++ fs, (Taken.one h1).trans ht, fun ha => ?_⟩
      simp [hf fun a hm => ha a (List.mem_cons_of_mem _ hm)]
    · rename_i hne
      cases h1
      exact ⟨fs, ht, fun ha => absurd (ha a List.mem_cons_self) hne⟩

theorem childHandles_ok {d d' : Drawing Img} {e e' : Entity} (h : d.childHandles e = .ok (e', d')) :
    ∃ fs, Taken d d' fs ∧ e'.toFlat = e.toFlat ∧ (e.Unhandled → e'.childHandles = fs) := by
  unfold childHandles at h
  split at h
  · rename_i hk
    obtain ⟨⟨s, d1⟩, h1, h⟩ := bind_ok h
    obtain ⟨⟨as, d2⟩, h2, h⟩ := bind_ok h
    cases h
    obtain ⟨fs, ht, hf⟩ := attHandles_ok h2
    refine ⟨[s] ++ fs, (Taken.one h1).trans ht, rfl, fun hu => ?_⟩
    rw [Entity.childHandles, if_pos hk]
    simp [hf hu.1]
  · rename_i hk
    split at h
    · rename_i hk'
      obtain ⟨⟨s, d1⟩, h1, h⟩ := bind_ok h
      obtain ⟨⟨as, d2⟩, h2, h⟩ := bind_ok h
      cases h
      obtain ⟨fs, ht, hf⟩ := vertHandles_ok h2
      refine ⟨[s] ++ fs, (Taken.one h1).trans ht, rfl, fun hu => ?_⟩
      rw [Entity.childHandles, if_neg hk, if_pos hk']
      simp [hf hu.2]
    · rename_i hk'
      cases h
      refine ⟨[], .refl _, rfl, fun _ => ?_⟩
      rw [Entity.childHandles, if_neg hk, if_neg hk']

theorem addEntity_ok {d d' : Drawing Img} {e e' : Entity} (h : d.addEntity e = .ok (e', d')) :
    ∃ hd d1 fs d2 d3, d.nextHandle = .ok (hd, d1) ∧ Taken d1 d2 fs ∧
      e'.toFlat = (e.setHandle hd).toFlat ∧ (e.Unhandled → e'.childHandles = fs) ∧ Grows d2 d3 ∧
      d3.EntityRefs e' ∧ d' = { d3 with entities := d3.entities ++ [e'] } := by
  obtain ⟨⟨hd, d1⟩, h1, h⟩ := bind_ok h
  obtain ⟨⟨e2, d2⟩, h2, h⟩ := bind_ok h
  obtain ⟨d3, h3, h⟩ := bind_ok h
  cases h
  obtain ⟨fs, ht, hf, hu⟩ := childHandles_ok h2
  obtain ⟨d4, g, hr, rfl⟩ := addEntityNoHandle_ok h3
  exact ⟨hd, d1, fs, d2, d4, h1, ht, hf, hu, g, hr, rfl⟩

theorem count_entities (d : Drawing Img) (e : Entity) (h : Handle) :
    (({ d with entities := d.entities ++ [e] } : Drawing Img).handlesOf c).count h =
      (d.handlesOf c).count h + [e.handle].count h + (c e).count h := by
  simp only [handlesOf, handles, List.map_append, List.count_append, List.map_cons, List.map_nil,
    List.flatMap_append, List.flatMap_cons, List.flatMap_nil, List.count_nil]
  omega

theorem handle_of_flat {e e' : Entity} (h : e'.toFlat = e.toFlat) : e'.handle = e.handle := by
  obtain ⟨f, x⟩ := e
  obtain ⟨f', x'⟩ := e'
  cases h
  rfl

theorem gains_addEntity {d d' : Drawing Img} {e e' : Entity} (h : d.addEntity e = .ok (e', d'))
    (hc : ∀ x : Entity, c x = [] ∨ (e.Unhandled ∧ c x = x.childHandles)) : Gains c d d' := by
  obtain ⟨hd, d1, fs, d2, d3, hn, ht, hf, hu, g, -, rfl⟩ := addEntity_ok h
  refine Gains.use ((Taken.one hn).trans ht) g.gains (.refl _) rfl fun x => ?_
  have hh : e'.handle = hd := handle_of_flat hf
  rw [count_entities, hh, List.count_append]
  rcases hc e' with hc | ⟨hu', hc⟩
  · rw [hc]
    simp only [List.count_nil]
    omega
  · rw [hc, hu hu']
    simp only [List.count_nil]
    omega

theorem entityHandles_ok {es es' : List Entity} {d d' : Drawing Img}
    (h : entityHandles es d = .ok (es', d')) : Taken d d' (es'.map Entity.handle) ∧
      List.Forall₂ (fun e e' => ∃ hd, e' = e.setHandle hd) es es' := by
  induction es generalizing d es' with
  | nil =>
    cases h
    exact ⟨.refl _, .nil⟩
  | cons e es ih =>
    obtain ⟨⟨hd, d1⟩, h1, h⟩ := bind_ok h
    obtain ⟨⟨bs, d2⟩, h2, h⟩ := bind_ok h
    cases h
    obtain ⟨ht, hf⟩ := ih h2
    exact ⟨(Taken.one h1).trans ht, .cons ⟨hd, rfl⟩ hf⟩

theorem addBlockNoHandle_ok {d d' : Drawing Img} {b b' : Block}
    (h : d.addBlockNoHandle b = .ok (b', d')) : ∃ d1 y d2 d3, Grows d d1 ∧
      (∀ s ∈ b.layer :: b.entities.map Entity.layer, d1.has .layer s = true) ∧
      (∀ s ∈ b.entities.map Entity.lineType, d1.has .lineType s = true) ∧
      d1.add .blockRecord (TName.named .blockRecord b.name) = .ok (y, d2) ∧
      Taken d2 d3 (b'.entities.map Entity.handle) ∧
      List.Forall₂ (fun e e' => ∃ hd, e' = e.setHandle hd) b.entities b'.entities ∧
      b' = { b with entities := b'.entities } ∧ d' = { d3 with blocks := d3.blocks ++ [b'] } := by
  obtain ⟨d1, h1, h⟩ := bind_ok h
  obtain ⟨d2, h2, h⟩ := bind_ok h
  obtain ⟨⟨y, d3⟩, h3, h⟩ := bind_ok h
  obtain ⟨⟨es, d4⟩, h4, h⟩ := bind_ok h
  cases h
  obtain ⟨g1, r1⟩ := ensureAll_ok h1
  obtain ⟨g2, r2⟩ := ensureAll_ok h2
  obtain ⟨ht, hf⟩ := entityHandles_ok h4
  exact ⟨d2, y, d3, d4, g1.trans g2, fun s hs => g2.has (r1 s hs), r2, h3, ht, hf, rfl, rfl⟩

theorem count_blocks (d : Drawing Img) (b : Block) (h : Handle) :
    (({ d with blocks := d.blocks ++ [b] } : Drawing Img).handlesOf c).count h =
      (d.handlesOf c).count h + [b.handle].count h + (b.entities.map Entity.handle).count h +
        (b.entities.flatMap c).count h := by
  simp only [handlesOf, handles, List.map_append, List.count_append, List.map_cons, List.map_nil,
    List.flatMap_append, List.flatMap_cons, List.flatMap_nil, List.count_nil]
  omega

theorem children_forall {es es' : List Entity} (hc : ∀ e ∈ es, ∀ h, c (e.setHandle h) = [])
    (h : List.Forall₂ (fun e e' => ∃ hd, e' = e.setHandle hd) es es') : es'.flatMap c = [] := by
  induction h with
  | nil => rfl
  | cons hx _ ih =>
    obtain ⟨hd, rfl⟩ := hx
    rw [List.flatMap_cons, hc _ List.mem_cons_self, ih fun e he => hc e (List.mem_cons_of_mem _ he)]
    rfl

theorem gains_addBlock {d d' : Drawing Img} {b b' : Block} (h : d.addBlock b = .ok (b', d'))
    (hc : ∀ e ∈ b.entities, ∀ h, c (e.setHandle h) = []) : Gains c d d' := by
  obtain ⟨⟨hd, d1⟩, h1, h⟩ := bind_ok h
  obtain ⟨d2, y, d3, d4, g, -, -, ha, ht, hf, hb, rfl⟩ := addBlockNoHandle_ok h
  refine Gains.use (.one h1) (g.gains.trans (gains_add ha)) ht rfl fun x => ?_
  have hh : b'.handle = hd := by rw [hb]; rfl
  rw [count_blocks, hh, children_forall hc hf]
  exact Nat.le_of_eq (by simp)

end Drawing
end Dxf
