import Verif.Lemmas.DrawingLookup

/-! C13 to C18: handles, lookup, removal, normalization and references of a drawing. -/

namespace Dxf

variable {Img : Type}

open Drawing

/-- `Entity::new(EntityType::…(Default::default()))` -/
def EName.plain (k : EName) : Entity := ⟨⟨k, 0, Entry.dflt _⟩, Extra.dflt⟩

/-! ### Handles (C13) -/

/-- C13: in every drawing that can be obtained from a new one by adding, removing, clearing,
normalizing and assigning owners, no two items (or entities in blocks) have the same handle, no
handle is the null handle, and the next available handle is greater than all. -/
theorem C13 {d : Drawing Img} (h : d.Reachable) : d.Sound :=
  sound_of_safe (safe_reachable h (fun _ _ _ => .inl rfl) (fun _ _ _ _ _ => rfl) fun _ => rfl)

/-- C13 also for the attributes and vertices of entities and their end marks, if what is added has
not been taken from a drawing before and blocks contain no such entities. -/
theorem C13_children_partial {d : Drawing Img} (h : d.ReachableBy Op.Simple) : d.DeepSound := by
  have hc : ∀ b, Op.Simple (.addBlock b) → ∀ e ∈ b.entities, ∀ h,
      (e.setHandle h).childHandles = [] := by
    intro b hb e he hd
    obtain ⟨hi, hp⟩ := hb e he
    have hk : (e.setHandle hd).kind = e.kind := rfl
    rw [Entity.childHandles, hk, if_neg hi, if_neg hp]
  obtain ⟨h1, h2, -⟩ := safe_reachable (c := Entity.childHandles) h
    (fun e he x => .inr ⟨he, rfl⟩) hc fun _ => rfl
  rw [handlesOf_deep] at h1 h2
  exact ⟨h1, fun h hh => by
    have := h2 h hh
    simp only [BitVec.lt_def]
    simpa using this⟩

/-- A step does not panic if there are enough handles left, and takes a bounded number of them. -/
theorem C13_step {d : Drawing Img} {op : Op} (h : d.next.toNat + op.cost < 2 ^ 64) :
    ∃ d', op.run d = .ok d' ∧ d'.next.toNat ≤ max 1 (d.next.toNat + op.cost) := step_ok h

/-- No history panics before the handles run out: 2⁶⁴ of them. -/
theorem C13_total {h0 : Header} (hf : Header.Fresh h0) (order : List Str) (ops : List Op)
    (h : 41 + 2 * order.length + (ops.map Op.cost).sum < 2 ^ 64) :
    ∃ d : Drawing Img, (Drawing.new h0 order >>= Op.runAll ops) = .ok d := by
  have h141 : h0 141 = (1#64 : Handle) := hf 141 (by decide)
  obtain ⟨d0, h1, hb⟩ := C13_step (op := .normalize order) (d := ({
    header := h0
    classes := []
    tables := fun _ => []
    blocks := []
    entities := []
    objects := []
    thumbnail := none } : Drawing Img)) (by
      change BitVec.toNat (h0 141 : Handle) + (40 + 2 * order.length) < _
      rw [h141]
      simp
      omega)
  replace h1 : Drawing.new h0 order = .ok d0 := h1
  replace hb : d0.next.toNat ≤ max 1 (BitVec.toNat (h0 141 : Handle) + (40 + 2 * order.length)) := hb
  rw [h141] at hb
  simp at hb
  obtain ⟨-, -, hp⟩ := safe_reachable (c := fun _ => []) (P := fun _ => True) (d := d0)
    ⟨h0, order, [], hf, by simp, by rw [h1]; rfl⟩ (fun _ _ _ => .inl rfl) (fun _ _ _ _ _ => rfl)
    fun _ => rfl
  obtain ⟨d, hd⟩ := runAll_ok ops d0 hp (by omega)
  exact ⟨d, by rw [h1]; exact hd⟩

example : ∃ d : Drawing Unit, d.Reachable := by
  obtain ⟨d, h⟩ := C13_total (Img := Unit) (h0 := Rec.dflt _) (fun _ _ => rfl) []
    [.add .layer (TName.named .layer str!"A"), .addEntity EName.line.plain, .remove .layer 0, .clear,
      .normalize []] (by decide +kernel)
  exact ⟨d, _, _, _, fun _ _ => rfl, fun _ _ => trivial, h⟩

/-- C13 is violated for attributes: if an insert with attributes is added, and what was stored is
added once more, the attributes of both have the same handles. -/
theorem C13_attributes_shared {d d1 d2 : Drawing Img} {e e1 e2 : Entity} (hu : e.Unhandled)
    (hk : e.kind = .insert) (hne : e.extra.atts ≠ []) (h1 : d.addEntity e = .ok (e1, d1))
    (h2 : d1.addEntity e1 = .ok (e2, d2)) : ¬ d2.DeepSound := by
  obtain ⟨da, db, ha, hk1, -⟩ := addEntity_insert hk h1
  obtain ⟨fs, ht, hf⟩ := attHandles_ok ha
  replace hf := hf hu.1
  obtain ⟨dc, dd, hb, hk2, -⟩ := addEntity_insert hk1 h2
  rw [attHandles_keep _ _ fun a hm => taken_not_auto ht (hf ▸ List.mem_map_of_mem hm)] at hb
  injection hb with hb
  injection hb with hb _
  obtain ⟨es, he⟩ := addEntity_twice h1 h2
  obtain ⟨a, as, hae⟩ : ∃ a as, e1.extra.atts = a :: as := by
    cases hc : e1.extra.atts with
    | nil =>
      have := attHandles_length ha
      rw [hc] at this
      exact absurd (List.length_eq_zero_iff.mp this.symm) hne
    | cons a as => exact ⟨a, as, rfl⟩
  refine shared_child he (x := a.handle) ?_ ?_
  · rw [Entity.childHandles, if_pos hk1, hae]
    simp
  · rw [Entity.childHandles, if_pos hk2, ← hb, hae]
    simp

/-- C13 is violated for vertices in the same way. -/
theorem C13_vertices_shared {d d1 d2 : Drawing Img} {e e1 e2 : Entity} (hu : e.Unhandled)
    (hk : e.kind = .polyline) (hne : e.extra.verts ≠ []) (h1 : d.addEntity e = .ok (e1, d1))
    (h2 : d1.addEntity e1 = .ok (e2, d2)) : ¬ d2.DeepSound := by
  obtain ⟨da, db, ha, hk1⟩ := addEntity_polyline hk h1
  obtain ⟨fs, ht, hf⟩ := vertHandles_ok ha
  replace hf := hf hu.2
  obtain ⟨dc, dd, hb, hk2⟩ := addEntity_polyline hk1 h2
  rw [vertHandles_keep _ _ fun a hm => taken_not_auto ht (hf ▸ List.mem_map_of_mem hm)] at hb
  injection hb with hb
  injection hb with hb _
  obtain ⟨es, he⟩ := addEntity_twice h1 h2
  obtain ⟨a, as, hae⟩ : ∃ a as, e1.extra.verts = a :: as := by
    cases hc : e1.extra.verts with
    | nil =>
      have := vertHandles_length ha
      rw [hc] at this
      exact absurd (List.length_eq_zero_iff.mp this.symm) hne
    | cons a as => exact ⟨a, as, rfl⟩
  have n1 : e1.kind ≠ .insert := by rw [hk1]; decide
  have n2 : e2.kind ≠ .insert := by rw [hk2]; decide
  refine shared_child he (x := a.handle) ?_ ?_
  · rw [Entity.childHandles, if_neg n1, if_pos hk1, hae]
    simp
  · rw [Entity.childHandles, if_neg n2, if_pos hk2, ← hb, hae]
    simp

/-- C13 is violated for blocks that contain entities with attributes or vertices: the end mark has
the null handle. -/
theorem C13_children_in_blocks {d d1 : Drawing Img} {b b1 : Block} {e : Entity}
    (he : e ∈ b.entities) (hk : e.kind = .insert ∨ e.kind = .polyline)
    (hz : e.extra.seqend = 0#64) (h : d.addBlock b = .ok (b1, d1)) : ¬ d1.DeepSound := by
  intro hs
  obtain ⟨hst, -, hf, -⟩ := stores_addBlock h
  obtain ⟨e1, he1, hd, rfl⟩ := forall2_mem hf he
  have : (0#64 : Handle) ∈ d1.deepHandles := by
    unfold deepHandles
    refine List.mem_append_left _ (List.mem_append_right _ ?_)
    refine List.mem_flatMap.mpr ⟨b1, hst, List.mem_flatMap.mpr ⟨_, he1, ?_⟩⟩
    have hk' : (e.setHandle hd).kind = e.kind := rfl
    have hx : (e.setHandle hd).extra.seqend = 0#64 := hz
    unfold Entity.childHandles
    rw [hk']
    rcases hk with hk | hk
    · rw [if_pos hk, hx]
      exact List.mem_cons_self
    · rw [if_neg (by rw [hk]; decide), if_pos hk, hx]
      exact List.mem_cons_self
  exact absurd (hs.2 _ this).1 (by decide)

/-- Such an entity, such a block, and a drawing they can be added to. -/
example : ∃ d d1 d2 d3 : Drawing Unit, ∃ e e1 e2 b b1, d.Reachable ∧ e.Unhandled ∧
    e.kind = EName.insert ∧ e.extra.atts ≠ [] ∧ d.addEntity e = .ok (e1, d1) ∧
    d1.addEntity e1 = .ok (e2, d2) ∧ e ∈ b.entities ∧ e.extra.seqend = 0#64 ∧
    d.addBlock b = .ok (b1, d3) := by
  let e : Entity := ⟨⟨.insert, 0, Entry.dflt _⟩,
    { Extra.dflt with atts := [⟨Rec.dflt _, Rec.dflt _, autoReplaceHandle⟩] }⟩
  let b : Block := { Block.dflt with entities := [e] }
  obtain ⟨d, h⟩ := C13_total (Img := Unit) (h0 := Rec.dflt _) (fun _ _ => rfl) [] [.clear]
    (by decide +kernel)
  have hn : d.next = 1#64 := by
    obtain ⟨d0, -, h2⟩ := bind_ok h
    cases h2
    rfl
  have hr : ∀ n, n < 1000 → Room n d := by
    intro n h
    unfold Room
    rw [hn]
    simp
    omega
  obtain ⟨⟨e1, d1⟩, h1, hb⟩ := affords_entity d e 100 (hr _ (by simp [e, Extra.dflt]))
  have hl : e1.extra.atts.length = 1 ∧ e1.extra.verts = [] := by
    obtain ⟨da, db, ha, -, hv⟩ := addEntity_insert rfl h1
    exact ⟨attHandles_length ha, hv⟩
  obtain ⟨⟨e2, d2⟩, h2, -⟩ := affords_entity d1 e1 10 (hb.mono (by rw [hl.1, hl.2]; decide))
  obtain ⟨⟨b1, d3⟩, h3, -⟩ := affords_block d b 0 (hr _ (by simp [b]))
  exact ⟨d, d1, d2, d3, e, e1, e2, b, b1, ⟨_, _, _, fun _ _ => rfl, fun _ _ => trivial, h⟩,
    by simp [Entity.Unhandled, e, Extra.dflt], rfl, by simp [e], h1, h2, by simp [b], rfl, h3⟩

/-! ### Lookup (C14) -/

/-- C14: looking up a handle gives exactly the stored item with that handle. -/
theorem C14_lookup {d : Drawing Img} (hd : d.Reachable) (h : Handle) (x : DrawingItem) :
    d.itemByHandle h = some x ↔ d.Stores x ∧ x.handle = h := itemByHandle_iff (C13 hd) h x

/-- C14: a handle that was never given out, and the null handle, give nothing. -/
theorem C14_unknown {d : Drawing Img} (hd : d.Reachable) {h : Handle} (hh : d.next ≤ h ∨ h = 0#64) :
    d.itemByHandle h = none := by
  refine itemByHandle_none fun hm => ?_
  have := (C13 hd).2 h hm
  simp only [BitVec.lt_def, BitVec.le_def] at this hh
  rcases hh with hh | rfl
  · omega
  · simp at this

/-- C14: lookup for reading and for writing find the same item, in all drawings. -/
theorem C14_mut (d : Drawing Img) (h : Handle) : (d.itemByHandleMut h).bind d.at = d.itemByHandle h :=
  mut_eq d h

theorem reach_step {d d' : Drawing Img} (hd : d.Reachable) {op : Op} (h : op.run d = .ok d') :
    d'.Reachable := by
  obtain ⟨h0, order, ops, hf, -, he⟩ := hd
  obtain ⟨d0, h1, h2⟩ := bind_ok he
  refine ⟨h0, order, ops ++ [op], hf, fun _ _ => trivial, ?_⟩
  rw [h1]
  change Op.runAll (ops ++ [op]) d0 = _
  rw [Op.runAll, List.foldlM_append]
  change (Op.runAll ops d0 >>= _) = _
  rw [h2]
  change List.foldlM (m := Except DxfErr) (fun d (op : Op) => op.run d) d [op] = _
  simp [h]

/-- C14: an entry that was added is found under the handle it was given. -/
theorem C14_add {d d' : Drawing Img} (hd : d.Reachable) {t : TName} {x y : t.Item}
    (h : d.add t x = .ok (y, d')) :
    y = t.setHandle x d.next ∧ d'.itemByHandle d.next = some (.table t y) := by
  obtain ⟨h1, h2, -⟩ := stores_add h
  refine ⟨h2, (C14_lookup (reach_step hd (op := .add t x) (by rw [Op.run, h]; rfl)) _ _).mpr
    ⟨h1, ?_⟩⟩
  rw [h2]
  exact TName.handle_setHandle t x _

/-- C14: a block that was added is found under the handle it was given. -/
theorem C14_addBlock {d d' : Drawing Img} (hd : d.Reachable) {b b' : Block}
    (h : d.addBlock b = .ok (b', d')) :
    b'.entry = (b.setHandle d.next).entry ∧ d'.itemByHandle d.next = some (.block b') := by
  obtain ⟨h1, h2, -⟩ := stores_addBlock h
  refine ⟨h2, (C14_lookup (reach_step hd (op := .addBlock b) (by rw [Op.run, h]; rfl)) _ _).mpr
    ⟨h1, ?_⟩⟩
  change Block.handle b' = _
  rw [Block.handle, h2]
  rfl

/-- C14: an entity that was added is found under the handle it was given. -/
theorem C14_addEntity {d d' : Drawing Img} (hd : d.Reachable) {e e' : Entity}
    (h : d.addEntity e = .ok (e', d')) :
    e'.toFlat = (e.setHandle d.next).toFlat ∧ d'.itemByHandle d.next = some (.entity e') := by
  obtain ⟨h1, h2, -⟩ := stores_addEntity h
  refine ⟨h2, (C14_lookup (reach_step hd (op := .addEntity e) (by rw [Op.run, h]; rfl)) _ _).mpr
    ⟨h1, ?_⟩⟩
  exact handle_of_flat h2

/-- C14: an object that was added is found under the handle it was given. -/
theorem C14_addObject {d d' : Drawing Img} (hd : d.Reachable) {o o' : Object}
    (h : d.addObject o = .ok (o', d')) :
    o' = o.setHandle d.next ∧ d'.itemByHandle d.next = some (.object o') := by
  obtain ⟨h1, h2, -⟩ := stores_addObject h
  refine ⟨h2, (C14_lookup (reach_step hd (op := .addObject o) (by rw [Op.run, h]; rfl)) _ _).mpr
    ⟨h1, ?_⟩⟩
  rw [h2]
  rfl

/-- C14: an item that is found under a handle is found after each operation that does not remove it;
only normalizing may change it. -/
theorem C14_stays {d d' : Drawing Img} (hd : d.Reachable) {op : Op} (h : op.run d = .ok d')
    {k : Handle} {x : DrawingItem} (hx : d.itemByHandle k = some x) (hr : ¬ op.Removes d x) :
    d'.itemByHandle k = some x ∨
      (d'.itemByHandle k = some x.normalize ∧ ∃ order, op = .normalize order) := by
  obtain ⟨hs, rfl⟩ := (C14_lookup hd _ _).mp hx
  have hd' := reach_step hd h
  rcases stores_step h hs hr with h1 | ⟨h1, h2⟩
  · exact .inl ((C14_lookup hd' _ _).mpr ⟨h1, rfl⟩)
  · exact .inr ⟨(C14_lookup hd' _ _).mpr ⟨h1, x.handle_normalize⟩, h2⟩

/-- C14: an item that was removed is not found any more. -/
theorem C14_removed {d d' : Drawing Img} (hd : d.Reachable) {op : Op} (h : op.run d = .ok d')
    {x : DrawingItem} (hr : op.Removes d x) : d'.itemByHandle x.handle = none := by
  have := not_stores_removed (C13 hd) h hr
  unfold itemByHandle
  rw [List.find?_eq_none]
  intro y hy hc
  exact this (List.mem_map.mpr ⟨y, hy, by simpa using hc⟩)

/-- An entity that is added, found, and removed. -/
theorem added_and_removed : ∃ d d' : Drawing Unit, ∃ x, d.Reachable ∧ d.itemByHandle 1#64 = some x ∧
    (Op.removeEntity 0).Removes d x ∧ (Op.removeEntity 0).run d = .ok d' ∧
    ¬ (Op.removeEntity 1).Removes d x := by
  obtain ⟨d, h⟩ := C13_total (Img := Unit) (h0 := Rec.dflt _) (fun _ _ => rfl) []
    [.clear, .addEntity EName.line.plain] (by decide +kernel)
  have hr : d.Reachable := ⟨_, _, _, fun _ _ => rfl, fun _ _ => trivial, h⟩
  obtain ⟨d0, -, h2⟩ := bind_ok h
  obtain ⟨d1, h3, h4⟩ := bind_ok (show ((Op.clear).run d0 >>= fun d => _) = _ from h2)
  cases h3
  obtain ⟨d2, h3, h5⟩ := bind_ok (show ((Op.addEntity EName.line.plain).run d0.clear >>= fun d => _) = _
    from h4)
  cases h5
  cases ha : d0.clear.addEntity EName.line.plain with
  | error => rw [Op.run, ha] at h3; cases h3
  | ok r =>
    rw [Op.run, ha] at h3
    cases h3
    obtain ⟨hd, da, fs, db, dc, hn, ht, hf, -, g, -, he⟩ := addEntity_ok (e' := r.1) (d' := r.2) ha
    have hl : r.2.entities = [r.1] := by
      rw [he]
      change dc.entities ++ _ = _
      rw [g.entities, ht.grows.entities, (grows_next hn).entities]
      rfl
    refine ⟨r.2, _, .entity r.1, hr, ?_, ⟨r.1, by rw [hl]; rfl, rfl⟩, rfl, ?_⟩
    · refine (C14_lookup hr _ _).mpr ⟨?_, ?_⟩
      · simp [Stores, hl]
      · refine (handle_of_flat hf).trans ?_
        exact (nextHandle_ok hn).1
    · rintro ⟨y, hy, -⟩
      rw [hl] at hy
      cases hy

/-! ### Removal (C15) -/

theorem removeItem_without {α : Type} (l : List α) (i : Nat) :
    (i < l.length → Without l (l.eraseIdx i) i) ∧ (l.length ≤ i → l.eraseIdx i = l) := by
  refine ⟨fun h => ⟨h, ?_, ?_, ?_⟩, List.eraseIdx_of_length_le⟩
  · rw [List.length_eraseIdx_of_lt h]
    omega
  · intro j hj
    rw [List.getElem?_eraseIdx_of_lt hj]
  · intro j hj
    rw [List.getElem?_eraseIdx_of_ge hj]

/-- C15: removing an entry of a table gives the entry at that place, if there is one, and leaves all
others in their order; nothing else changes. -/
theorem C15_table (d : Drawing Img) (t : TName) (i : Nat) :
    (d.remove t i).1 = (d.tables t)[i]? ∧
    (i < (d.tables t).length → Without (d.tables t) ((d.remove t i).2.tables t) i) ∧
    ((d.tables t).length ≤ i → (d.remove t i).2.tables t = d.tables t) ∧
    (∀ t', t' ≠ t → (d.remove t i).2.tables t' = d.tables t') ∧
    (d.remove t i).2 = { d with tables := (d.remove t i).2.tables } := by
  have h := removeItem_without (d.tables t) i
  simp only [remove, removeItem_eq]
  rw [tables_set]
  exact ⟨by trivial, h.1, h.2, fun t' ht => tables_set_ne _ _ (Ne.symm ht), by trivial⟩

/-- C15 for blocks. -/
theorem C15_block (d : Drawing Img) (i : Nat) :
    (d.removeBlock i).1 = d.blocks[i]? ∧
    (i < d.blocks.length → Without d.blocks (d.removeBlock i).2.blocks i) ∧
    (d.blocks.length ≤ i → (d.removeBlock i).2.blocks = d.blocks) ∧
    (d.removeBlock i).2 = { d with blocks := (d.removeBlock i).2.blocks } := by
  have h := removeItem_without d.blocks i
  simp only [removeBlock, removeItem_eq]
  exact ⟨by trivial, h.1, h.2, by trivial⟩

/-- C15 for entities. -/
theorem C15_entity (d : Drawing Img) (i : Nat) :
    (d.removeEntity i).1 = d.entities[i]? ∧
    (i < d.entities.length → Without d.entities (d.removeEntity i).2.entities i) ∧
    (d.entities.length ≤ i → (d.removeEntity i).2.entities = d.entities) ∧
    (d.removeEntity i).2 = { d with entities := (d.removeEntity i).2.entities } := by
  have h := removeItem_without d.entities i
  simp only [removeEntity, removeItem_eq]
  exact ⟨by trivial, h.1, h.2, by trivial⟩

/-- C15 for objects. -/
theorem C15_object (d : Drawing Img) (i : Nat) :
    (d.removeObject i).1 = d.objects[i]? ∧
    (i < d.objects.length → Without d.objects (d.removeObject i).2.objects i) ∧
    (d.objects.length ≤ i → (d.removeObject i).2.objects = d.objects) ∧
    (d.removeObject i).2 = { d with objects := (d.removeObject i).2.objects } := by
  have h := removeItem_without d.objects i
  simp only [removeObject, removeItem_eq]
  exact ⟨by trivial, h.1, h.2, by trivial⟩

example : Without [1, 2, 3, 4] [1, 2, 4] 2 :=
  ((removeItem_without [1, 2, 3, 4] 2).1 (by decide) :)

/-! ### Normalizing (C16, C17) -/

/-- C16: after normalizing the standard entries exist, and those named in the header. -/
theorem C16_standard {d d' : Drawing Img} {order : List Str} (ho : d.UcsOrder order)
    (h : d.normalize order = .ok d') :
    (∀ p ∈ standard, d'.has p.1 p.2 = true) ∧ d'.has .layer (d'.header 22) = true ∧
    ∀ s ∈ d'.ucsNames, s ≠ [] → d'.has .ucs s = true := by
  obtain ⟨d1, d2, g1, g2, rfl, -, -, hs, hl, hu, -⟩ := normalize_ok h
  have hh : ∀ i, i ≠ 141 → d2.sorted.header i = d.header.normalize i := fun i hi =>
    (g2.header i hi).trans (g1.header i hi)
  refine ⟨fun p hp => (has_sorted d2 _ _).trans (hs p hp), ?_, fun s hs hne => ?_⟩
  · refine (has_sorted d2 .layer _).trans ?_
    exact (congrArg (d2.has .layer) (hh 22 (by decide))).trans hl
  · rw [has_sorted]
    refine hu s ((ho.2 s).mpr ?_) hne
    have : d2.sorted.ucsNames = d.ucsNames := by
      unfold ucsNames
      rw [hh 147 (by decide), hh 148 (by decide), hh 152 (by decide), hh 160 (by decide),
        hh 161 (by decide), hh 165 (by decide)]
      rfl
    exact this ▸ hs

theorem ucsNames_normalize {d d' : Drawing Img} {order : List Str} (h : d.normalize order = .ok d') :
    d'.ucsNames = d.ucsNames := by
  obtain ⟨d1, d2, g1, g2, rfl, -⟩ := normalize_ok h
  have hh : ∀ i, i ≠ 141 → d2.sorted.header i = d.header.normalize i := fun i hi =>
    (g2.header i hi).trans (g1.header i hi)
  unfold ucsNames
  rw [hh 147 (by decide), hh 148 (by decide), hh 152 (by decide), hh 160 (by decide),
    hh 161 (by decide), hh 165 (by decide)]
  rfl

theorem sorted_sorted (d : Drawing Img) : d.sorted.sorted = d.sorted := by
  refine ext_iff' rfl rfl rfl rfl rfl rfl fun t => ?_
  exact List.mergeSort_of_pairwise (List.pairwise_mergeSort (nameLe_trans t) (nameLe_total t) _)

/-- C16: normalizing again changes nothing, if there was a view port `*ACTIVE` before; this holds for
whatever order the names of UCSs come in. -/
theorem C16_partial {d d' : Drawing Img} {order order' : List Str} (ho : d.UcsOrder order)
    (h : d.normalize order = .ok d') (ho' : d'.UcsOrder order')
    (hv : d.has .viewPort str!"*ACTIVE" = true) : d'.normalize order' = .ok d' := by
  obtain ⟨hs, hl, hu⟩ := C16_standard ho h
  obtain ⟨d1, d2, g1, g2, he, -, -, -, -, -, -, hvp⟩ := normalize_ok h
  have hh : ∀ i, i ≠ 141 → d'.header i = d.header.normalize i := fun i hi => by
    rw [he]
    exact (g2.header i hi).trans (g1.header i hi)
  have hprep : d'.prep = d' := by
    refine ext_iff' (Header.normalize_again hh) rfl ?_ ?_ rfl rfl fun _ => rfl
    · have : d'.blocks = d.blocks.map Block.normalize := by
        rw [he]
        exact g2.blocks.trans g1.blocks
      change d'.blocks.map _ = _
      rw [this, List.map_map]
      exact List.map_congr_left fun b _ => Block.normalize_again b
    · have : d'.entities = d.entities.map Entity.normalize := by
        rw [he]
        exact g2.entities.trans g1.entities
      change d'.entities.map _ = _
      rw [this, List.map_map]
      exact List.map_congr_left fun b _ => Entity.normalize_again b
  have hmid : d'.mid = d' := by
    refine ext_iff' rfl rfl rfl rfl rfl rfl fun t => ?_
    change (d'.tables t).map t.normalize = d'.tables t
    refine (List.map_congr_left fun x hx => ?_).trans (List.map_id _)
    have hx2 : x ∈ d2.tables t := by
      rw [he] at hx
      exact (perm_sorted d2 t).mem_iff.mp hx
    have old : ∀ y ∈ d1.mid.tables t, t.Normal y := by
      intro y hy
      obtain ⟨z, -, rfl⟩ := List.mem_map.mp hy
      exact TName.normal_normalize t z
    by_cases ht : t = .viewPort
    · subst ht
      rw [hvp hv] at hx2
      exact old x hx2
    · obtain ⟨new, hn, h1, -⟩ := g2.tables t
      rw [hn] at hx2
      rcases List.mem_append.mp hx2 with hx2 | hx2
      · exact old x hx2
      · rw [(h1 x hx2).2]
        exact TName.normal_named t ht _ _
  have hsort : d'.sorted = d' := by
    rw [he]
    exact sorted_sorted d2
  have st : ∀ t ss, (∀ s ∈ ss, (t, s) ∈ standard) → d'.ensureAll t ss = .ok d' := fun t ss hss =>
    ensureAll_has fun s hs' => hs (t, s) (hss s hs')
  have bo : ∀ (f : Drawing Img → Except DxfErr (Drawing Img)), (Except.ok d' >>= f) = f d' :=
    fun f => rfl
  rw [normalize_eq, hprep, st .appId _ (by decide), bo, st .blockRecord _ (by decide), bo,
    ensure_has hl, bo, hmid, st .dimStyle _ (by decide), bo,
    ensure_has (hs (.layer, str!"0") (by decide)), bo, st .lineType _ (by decide), bo,
    st .style _ (by decide), bo, ensure_has (hs (.viewPort, str!"*ACTIVE") (by decide)), bo,
    ensureAll_has, bo, hsort]
  · rfl
  · intro s hs'
    rw [List.mem_filter] at hs'
    refine hu s ((ho'.2 s).mp hs'.1) ?_
    rintro rfl
    exact absurd hs'.2 (by decide)

/-- C16: after normalizing twice, normalizing again changes nothing. -/
theorem C16_twice {d d' d'' : Drawing Img} {o1 o2 o3 : List Str} (h1 : d.UcsOrder o1)
    (e1 : d.normalize o1 = .ok d') (h2 : d'.UcsOrder o2) (e2 : d'.normalize o2 = .ok d'')
    (h3 : d''.UcsOrder o3) : d''.normalize o3 = .ok d'' :=
  C16_partial h2 e2 h3 ((C16_standard h1 e1).1 (.viewPort, str!"*ACTIVE") (by decide))

/-- C16 is violated exactly otherwise: if there was no view port `*ACTIVE`, normalizing again does
change something. -/
theorem C16_violated {d d' : Drawing Img} {order order' : List Str} (ho : d.UcsOrder order)
    (h : d.normalize order = .ok d') (hv : d.has .viewPort str!"*ACTIVE" = false) :
    d'.normalize order' ≠ .ok d' := by
  intro h2
  have hs := (C16_standard ho h).1 (.viewPort, str!"*ACTIVE") (by decide)
  obtain ⟨x, hx, hxn⟩ := (has_iff _ _ _).mp hs
  -- the entry is a default one
  obtain ⟨d1, d2, g1, g2, he, -, -, -, -, -, ht, -⟩ := normalize_ok h
  have hx2 : x ∈ d2.tables .viewPort := by
    rw [he] at hx
    exact (perm_sorted d2 .viewPort).mem_iff.mp hx
  obtain ⟨new, hn, hnew, -⟩ := g2.tables .viewPort
  have hxd : x = TName.setHandle .viewPort (TName.named .viewPort (TName.name .viewPort x))
      (TName.handle .viewPort x) := by
    rw [hn] at hx2
    rcases List.mem_append.mp hx2 with hx2 | hx2
    · obtain ⟨z, hz, rfl⟩ := List.mem_map.mp hx2
      rw [ht] at hz
      have : d.has .viewPort str!"*ACTIVE" = true := (has_iff _ _ _).mpr
        ⟨z, hz, (TName.name_normalize .viewPort z).symm.trans hxn⟩
      rw [hv] at this
      cases this
    · exact (hnew x hx2).2
  -- after normalizing again it is normalized
  obtain ⟨d3, d4, g3, g4, he', -, -, -, -, -, ht', hvp'⟩ := normalize_ok h2
  have hx4 : x ∈ d4.tables .viewPort := by
    rw [he'] at hx
    exact (perm_sorted d4 .viewPort).mem_iff.mp hx
  rw [hvp' hs] at hx4
  obtain ⟨z, -, hz⟩ := List.mem_map.mp hx4
  have hnorm : TName.normalize .viewPort x = x := by
    rw [← hz]
    exact TName.normal_normalize .viewPort z
  rw [hxd] at hnorm
  have := congrArg (fun y : TName.Item .viewPort => (y.fields 7 : Point).z) hnorm
  replace this : (Point.ensurePositive (Rec.dflt Tables.viewPortDecls 7)).z =
      (Rec.dflt Tables.viewPortDecls 7 : Point).z := this
  exact absurd this (by decide +kernel)

/-- The drawing made by `Drawing::new` is not stable under normalizing. -/
theorem C16_new {h0 : Header} (hf : Header.Fresh h0) {d : Drawing Img} {order order' : List Str}
    (h : Drawing.new h0 order = .ok d) (ho : order = [[]]) :
    d.normalize order' ≠ .ok d := by
  subst ho
  refine C16_violated (order := [[]]) (d := {
    header := h0
    classes := []
    tables := fun _ => []
    blocks := []
    entities := []
    objects := []
    thumbnail := none }) ⟨by simp, fun s => ?_⟩ h rfl
  have : ∀ i, i ∉ Header.nondet → h0 i = Rec.dflt Header.decls i := hf
  simp only [ucsNames]
  rw [this 147 (by decide), this 148 (by decide), this 152 (by decide), this 160 (by decide),
    this 161 (by decide), this 165 (by decide)]
  change _ ↔ s ∈ [([] : Str), [], [], [], [], []]
  simp

/-- A drawing that has such a view port: what `Drawing::new` makes; it can be normalized. -/
example : ∃ d d' : Drawing Unit, ∃ order, d.Reachable ∧ d.UcsOrder order ∧
    d.has .viewPort str!"*ACTIVE" = true ∧ d.normalize order = .ok d' := by
  have ho : (⟨Rec.dflt Header.decls, [], fun _ => [], [], [], [], none⟩ : Drawing Unit).UcsOrder
      [[]] := by
    refine ⟨by simp, fun s => ?_⟩
    change _ ↔ s ∈ [([] : Str), [], [], [], [], []]
    simp
  obtain ⟨d, h⟩ := C13_total (Img := Unit) (h0 := Rec.dflt _) (fun _ _ => rfl) [[]]
    [.clear, .normalize [[]]] (by decide +kernel)
  obtain ⟨d0, h1, h2⟩ := bind_ok h
  obtain ⟨d1, h3, h4⟩ := bind_ok (show ((Op.clear).run d0 >>= fun d => _) = _ from h2)
  cases h3
  obtain ⟨d2, h3, h5⟩ := bind_ok (show ((Op.normalize [[]]).run d0.clear >>= fun d => _) = _ from h4)
  have hu : d0.UcsOrder [[]] := by
    refine ⟨ho.1, fun s => ?_⟩
    rw [ho.2, ucsNames_normalize h1]
  obtain ⟨d3, h6, -⟩ := affords_normalize d0 [[]] 0 (by
    unfold Room
    obtain ⟨d', e', hb⟩ := step_ok (op := .normalize [[]])
      (d := (⟨Rec.dflt Header.decls, [], fun _ => [], [], [], [], none⟩ : Drawing Unit))
      (by decide +kernel)
    cases h1.symm.trans e'
    have : BitVec.toNat (Drawing.next (⟨Rec.dflt Header.decls, [], fun _ => [], [], [], [], none⟩ :
      Drawing Unit)) = 1 := by decide +kernel
    rw [this] at hb
    simp [Op.cost] at hb ⊢
    omega)
  exact ⟨d0, d3, [[]], ⟨_, _, [], fun _ _ => rfl, fun _ _ => trivial, by rw [h1]; rfl⟩, hu,
    (C16_standard ho h1).1 (.viewPort, str!"*ACTIVE") (by decide), h6⟩

/-- C17: normalizing leaves every table sorted by name; every entry is still there, up to defaults
for some of its fields; what is new has a name that was missing. -/
theorem C17 {d d' : Drawing Img} {order : List Str} (h : d.normalize order = .ok d') (t : TName) :
    (d'.tables t).Pairwise (fun a b => Str.lt (t.name b) (t.name a) = false) ∧
    ∃ new, (d'.tables t).Perm ((d.tables t).map t.normalize ++ new) ∧
      (∀ x ∈ new, d.has t (t.name x) = false) ∧ (new.map t.name).Nodup := by
  obtain ⟨d1, d2, g1, g2, rfl, -⟩ := normalize_ok h
  refine ⟨?_, ?_⟩
  · refine (List.pairwise_mergeSort (nameLe_trans t) (nameLe_total t) _).imp fun {a b} hab => ?_
    simpa [nameLe] using hab
  · obtain ⟨n1, e1, m1, u1⟩ := g1.tables t
    obtain ⟨n2, e2, m2, u2⟩ := g2.tables t
    have hd : d.prep.tables t = d.tables t := rfl
    have hm : (n1.map t.normalize).map t.name = n1.map t.name := by
      rw [List.map_map]
      exact List.map_congr_left fun x _ => TName.name_normalize t x
    have h1 : ∀ {s}, d.has t s = true → d1.mid.has t s = true := fun {s} hs =>
      (has_mid d1 t s).trans (g1.has (show d.prep.has t s = true from hs))
    refine ⟨n1.map t.normalize ++ n2, ?_, ?_, ?_⟩
    · refine (perm_sorted d2 t).trans ?_
      rw [e2]
      change (List.map _ (d1.tables t) ++ n2).Perm _
      rw [e1, hd, List.map_append, List.append_assoc]
    · intro x hx
      rcases List.mem_append.mp hx with hx | hx
      · obtain ⟨y, hy, rfl⟩ := List.mem_map.mp hx
        rw [TName.name_normalize]
        exact (m1 y hy).1
      · refine Bool.eq_false_iff.mpr fun hc => ?_
        exact absurd (m2 x hx).1 (by simp [h1 hc])
    · rw [List.map_append, hm, List.nodup_append]
      refine ⟨u1, u2, ?_⟩
      rintro a ha b hb rfl
      obtain ⟨x, hx, rfl⟩ := List.mem_map.mp ha
      obtain ⟨y, hy, hxy⟩ := List.mem_map.mp hb
      have h3 : d1.has t (t.name x) = true := (has_iff _ _ _).mpr
        ⟨x, by rw [e1]; exact List.mem_append_right _ hx, rfl⟩
      have := (m2 y hy).1
      rw [hxy, has_mid, h3] at this
      cases this

/-- C17: what normalizing makes of an entry has the same name and handle, the same extension and
extended data and, but for a few, the same fields. -/
theorem C17_entry (t : TName) (x : t.Item) :
    t.name (t.normalize x) = t.name x ∧ t.handle (t.normalize x) = t.handle x ∧
    (t.normalize x).ext = x.ext ∧ (t.normalize x).xdata = x.xdata ∧
    ∀ i, i ∉ t.defaulted → (t.normalize x).fields i = x.fields i := by
  refine ⟨TName.name_normalize t x, TName.handle_normalize t x, ?_, ?_, fun i hi => ?_⟩
  · cases t <;> rfl
  · cases t <;> rfl
  · cases t
    case layer =>
      simp only [TName.defaulted, List.mem_cons, List.not_mem_nil, or_false, not_or] at hi
      exact (Rec.set_ne _ _ hi.1).trans (Rec.set_ne _ _ hi.2)
    case style =>
      simp only [TName.defaulted, List.mem_cons, List.not_mem_nil, or_false, not_or] at hi
      exact (Rec.set_ne _ _ hi.2).trans (Rec.set_ne _ _ hi.1)
    case view =>
      simp only [TName.defaulted, List.mem_cons, List.not_mem_nil, or_false, not_or] at hi
      exact (Rec.set_ne _ _ hi.2.2).trans ((Rec.set_ne _ _ hi.2.1).trans (Rec.set_ne _ _ hi.1))
    case viewPort =>
      simp only [TName.defaulted, List.mem_cons, List.not_mem_nil, or_false, not_or] at hi
      obtain ⟨h7, h8, h11, h12, h13, h19, h21⟩ := hi
      exact (Rec.set_ne _ _ h19).trans ((Rec.set_ne _ _ h21).trans ((Rec.set_ne _ _ h13).trans
        ((Rec.set_ne _ _ h12).trans ((Rec.set_ne _ _ h11).trans ((Rec.set_ne _ _ h8).trans
        (Rec.set_ne _ _ h7))))))
    all_goals rfl

/-- C17: an entry whose fields make sense is not changed at all. -/
theorem C17_sensible :
    (∀ x : TName.Item .layer, (x.fields 4 : Str) ≠ [] → (x.fields 3 : I16) ≠ 0#16 →
      (x.fields 3 : I16) ≠ 256#16 → TName.normalize .layer x = x) ∧
    (∀ x : TName.Item .style, F64.nonpos (x.fields 3) = false → F64.nonpos (x.fields 4) = false →
      TName.normalize .style x = x) ∧
    (∀ x : TName.Item .view, F64.nonpos (x.fields 3) = false → F64.nonpos (x.fields 5) = false →
      F64.nonpos (x.fields 8) = false → TName.normalize .view x = x) := by
  refine ⟨fun x h4 h0 h1 => ?_, fun x h3 h4 => ?_, fun x h3 h5 h8 => ?_⟩
  · have : normalizeLayer x.fields = x.fields := by
      refine normalizeLayer_self ?_ ?_
      · have : ∀ s : Str, s ≠ [] → defaultIfEmpty s str!"CONTINUOUS" = s := by
          intro s hs
          cases s with
          | nil => exact absurd rfl hs
          | cons => rfl
        exact this _ h4
      · have : ∀ c : I16, c ≠ 0#16 → c ≠ 256#16 → layerColor c = c := fun c h h' =>
          if_neg (by rintro (h1 | h1); exacts [h h1, h' h1])
        exact this _ h0 h1
    exact congrArg (fun r => ({ x with fields := r } : TName.Item .layer)) this
  · have hp : ∀ (y c : F64), y.nonpos = false → ensurePositive y c = y := fun y c h => by
      simp [ensurePositive, h]
    exact congrArg (fun r => ({ x with fields := r } : TName.Item .style))
      (normalizeStyle_self (hp _ _ h3) (hp _ _ h4))
  · have hp : ∀ (y c : F64), y.nonpos = false → ensurePositive y c = y := fun y c h => by
      simp [ensurePositive, h]
    exact congrArg (fun r => ({ x with fields := r } : TName.Item .view))
      (normalizeView_self (hp _ _ h3) (hp _ _ h5) (hp _ _ h8))

/-- C17: nothing else is reordered, added or removed. -/
theorem C17_rest {d d' : Drawing Img} {order : List Str} (h : d.normalize order = .ok d') :
    d'.blocks = d.blocks.map Block.normalize ∧ d'.entities = d.entities.map Entity.normalize ∧
    d'.objects = d.objects ∧ d'.classes = d.classes ∧ d'.thumbnail = d.thumbnail := by
  obtain ⟨d1, d2, g1, g2, rfl, -, ho, -⟩ := normalize_ok h
  exact ⟨g2.blocks.trans g1.blocks, g2.entities.trans g1.entities, ho, g2.classes.trans g1.classes,
    g2.thumbnail.trans g1.thumbnail⟩

/-! ### References (C18) -/

/-- From `Grows` to the words of the specification. -/
theorem keeps_of_grows {d d' : Drawing Img} (g : Grows d d') : d.KeepsTables d' := by
  intro t
  obtain ⟨new, h1, h2, h3⟩ := g.tables t
  refine ⟨new, h1, fun x hx y hy hxy => ?_, h3⟩
  have := (h2 x hx).1
  rw [← Bool.not_eq_true, has_iff] at this
  exact this ⟨y, hy, hxy⟩

/-- C18 for entities: what the entity refers to is there, and no entry that existed was duplicated
or modified. -/
theorem C18_entity {d d' : Drawing Img} {e e' : Entity} (h : d.addEntity e = .ok (e', d')) :
    d'.EntityRefs e' ∧ d.KeepsTables d' ∧
    (∃ new, d'.objects = d.objects ++ new ∧ (new.map Object.styleName).Nodup ∧
      ∀ o ∈ new, ∃ s, o.styleName = some s ∧ ∀ o' ∈ d.objects, o'.styleName ≠ some s) := by
  obtain ⟨hd, d1, fs, d2, d3, hn, ht, hf, -, g, hr, rfl⟩ := addEntity_ok h
  have g0 := (grows_next hn).trans (ht.grows.trans g)
  refine ⟨hr, fun t => keeps_of_grows g0 t, ?_⟩
  obtain ⟨new, h1, h2, h3⟩ := g0.objects
  refine ⟨new, h1, h3, fun o ho => ?_⟩
  obtain ⟨s, h4, h5⟩ := h2 o ho
  exact ⟨s, by rw [h4]; rfl, h5⟩

/-- C18 for layers: the line type is there. -/
theorem C18_layer {d d' : Drawing Img} {x y : TName.Item .layer} (h : d.add .layer x = .ok (y, d')) :
    d'.has .lineType (y.fields 4) = true ∧
    ∃ d1, d.KeepsTables d1 ∧ d1.tables .layer = d.tables .layer ∧ d' = d1.push .layer y := by
  obtain ⟨⟨hd, d1⟩, h1, h⟩ := bind_ok h
  obtain ⟨d2, h2, h⟩ := bind_ok h
  cases h
  obtain ⟨d3, h3, h4⟩ := bind_ok h2
  cases h4
  obtain ⟨g, hr, ht⟩ := ensurePlain_ok h3
  refine ⟨?_, d3, keeps_of_grows ((grows_next h1).trans g), ?_, rfl⟩
  · refine (has_tables ?_ _).trans hr
    exact tables_set_ne _ _ (by decide)
  · rw [ht _ (by decide), next_tables h1]

/-- C18 for objects: the layers of filters and indices and the view of plot settings are there. -/
theorem C18_object {d d' : Drawing Img} {o o' : Object} (h : d.addObject o = .ok (o', d')) :
    d'.ObjectRefs o' ∧ d.KeepsTables d' ∧ d'.objects = d.objects ++ [o'] := by
  obtain ⟨hd, d1, d2, hn, rfl, g, ho, hr, rfl⟩ := addObject_ok h
  refine ⟨hr, fun t => keeps_of_grows ((grows_next hn).trans g) t, ?_⟩
  change d2.objects ++ _ = _
  rw [ho]

/-- C18 for blocks, in part: the layers of the block and of its entities and the line types of its
entities are there, and entries other than block records are not duplicated. -/
theorem C18_block_partial {d d' : Drawing Img} {b b' : Block} (h : d.addBlock b = .ok (b', d')) :
    d'.has .layer b'.layer = true ∧ d'.has .blockRecord b'.name = true ∧
    (∀ e ∈ b'.entities, d'.has .layer e.layer = true ∧ d'.has .lineType e.lineType = true) ∧
    ∃ d1, d.KeepsTables d1 ∧ ∀ t, t ≠ .blockRecord → d'.tables t = d1.tables t := by
  obtain ⟨⟨hd, d1⟩, h1, h⟩ := bind_ok h
  obtain ⟨d2, y, d3, d4, g, r1, r2, ha, ht, hf, hb, rfl⟩ := addBlockNoHandle_ok h
  have e4 : d4.tables = d3.tables := by rw [ht.same]
  have e3 : ∀ t, t ≠ .blockRecord → d3.tables t = d2.tables t := fun t hne =>
    add_tables ha hne (.inr (by decide))
  have k : ∀ t s, t ≠ .blockRecord → d2.has t s = true → d4.has t s = true := fun t s hne hs => by
    exact (has_tables (congrFun e4 t) s).trans ((has_tables (e3 t hne) s).trans hs)
  refine ⟨?_, ?_, fun e he => ?_, d2, keeps_of_grows ((grows_next h1).trans g), fun t hne => ?_⟩
  · rw [hb]
    exact k .layer _ (by decide) (r1 _ List.mem_cons_self)
  · have hst := (stores_add ha).1
    have hy := (stores_add ha).2.1
    refine (has_iff _ _ _).mpr ⟨y, ?_, ?_⟩
    · change y ∈ d4.tables .blockRecord
      rw [e4]
      exact hst
    · rw [hy, TName.name_setHandle, TName.name_named, hb]
      rfl
  · obtain ⟨e0, he0, hd', rfl⟩ := forall2_mem' hf he
    refine ⟨k .layer _ (by decide) (r1 _ (List.mem_cons_of_mem _ ?_)), k .lineType _ (by decide)
      (r2 _ ?_)⟩
    · exact List.mem_map.mpr ⟨e0, he0, rfl⟩
    · exact List.mem_map.mpr ⟨e0, he0, rfl⟩
  · change d4.tables t = _
    rw [e4, e3 t hne]

/-- C18 is violated: adding a block adds a block record, even if there is one of that name. -/
theorem C18_block_record_duplicated {d d' : Drawing Img} {b b' : Block}
    (h : d.addBlock b = .ok (b', d')) :
    (d'.tables .blockRecord).countP (fun x => TName.name .blockRecord x == b.name) =
      (d.tables .blockRecord).countP (fun x => TName.name .blockRecord x == b.name) + 1 := by
  obtain ⟨⟨hd, d1⟩, h1, h⟩ := bind_ok h
  obtain ⟨d2, h2, h⟩ := bind_ok h
  obtain ⟨d3, h3, h⟩ := bind_ok h
  obtain ⟨⟨y, d4⟩, h4, h⟩ := bind_ok h
  obtain ⟨⟨es, d5⟩, h5, h⟩ := bind_ok h
  cases h
  obtain ⟨ht, -⟩ := entityHandles_ok h5
  change (d5.tables .blockRecord).countP _ = _
  rw [ht.same]
  obtain ⟨hd', d6, d7, hn, hy, g, ht2, rfl⟩ := add_ok h4
  change ((d7.push .blockRecord y).tables .blockRecord).countP _ = _
  rw [push, tables_set, ht2, ensureAll_tables h3 (by decide) (.inr (by decide)),
    ensureAll_tables h2 (by decide) (.inl (by decide)), next_tables h1, List.countP_append]
  have : TName.name .blockRecord y = b.name := by
    rw [hy, TName.name_setHandle, TName.name_named]
    rfl
  simp [this]

/-- C18 is violated for entities in blocks: no text style, dimension style, view or multiline style
is ever added for them. -/
theorem C18_block_styles_missing {d d' : Drawing Img} {b b' : Block}
    (h : d.addBlock b = .ok (b', d')) :
    d'.tables .style = d.tables .style ∧ d'.tables .dimStyle = d.tables .dimStyle ∧
    d'.objects = d.objects := by
  obtain ⟨⟨hd, d1⟩, h1, h⟩ := bind_ok h
  obtain ⟨d2, h2, h⟩ := bind_ok h
  obtain ⟨d3, h3, h⟩ := bind_ok h
  obtain ⟨⟨y, d4⟩, h4, h⟩ := bind_ok h
  obtain ⟨⟨es, d5⟩, h5, h⟩ := bind_ok h
  cases h
  obtain ⟨ht, -⟩ := entityHandles_ok h5
  have e5 : d5.tables = d4.tables ∧ d5.objects = d4.objects := by
    rw [ht.same]
    exact ⟨rfl, rfl⟩
  have k : ∀ t, t ≠ .blockRecord → t ≠ .layer → t ≠ .lineType → d5.tables t = d.tables t := by
    intro t n1 n2 n3
    rw [e5.1, add_tables h4 n1 (.inl n3), ensureAll_tables h3 n3 (.inl n3),
      ensureAll_tables h2 n2 (.inl n3), next_tables h1]
  refine ⟨k .style (by decide) (by decide) (by decide), k .dimStyle (by decide) (by decide)
    (by decide), ?_⟩
  change d5.objects = _
  rw [e5.2, add_objects h4, ensureAll_objects h3, ensureAll_objects h2]
  obtain ⟨-, rfl, -⟩ := nextHandle_ok h1
  rfl

/-- C18 is violated for the attributes of an insert: no text style is ever added for them. -/
theorem C18_attribute_styles_missing {d d' : Drawing Img} {e e' : Entity} (hk : e.kind = .insert)
    (h : d.addEntity e = .ok (e', d')) : d'.tables .style = d.tables .style := by
  obtain ⟨⟨hd, d1⟩, h1, h⟩ := bind_ok h
  obtain ⟨⟨e2, d2⟩, h2, h⟩ := bind_ok h
  obtain ⟨d3, h3, h⟩ := bind_ok h
  cases h
  obtain ⟨fs, ht, hf, -⟩ := childHandles_ok h2
  have hm : e'.mlineStyle = none ∧ e'.textStyle = none := by
    obtain ⟨⟨k, s, x⟩, ex⟩ := e
    obtain ⟨⟨k', s', x'⟩, ex'⟩ := e'
    cases hk
    cases hf
    exact ⟨rfl, rfl⟩
  obtain ⟨d4, h4, h3⟩ := bind_ok h3
  obtain ⟨d5, h5, h3⟩ := bind_ok h3
  obtain ⟨d6, h6, h3⟩ := bind_ok h3
  obtain ⟨d7, h7, h3⟩ := bind_ok h3
  obtain ⟨d8, h8, h3⟩ := bind_ok h3
  cases h3
  rw [hm.1] at h4
  cases h4
  rw [hm.2] at h8
  cases h8
  change d7.tables .style = _
  rw [ensure_tables h7 (by decide) (by decide), ensure_tables h6 (by decide) (by decide),
    ensureAll_tables h5 (by decide) (by decide), ht.same]
  exact congrFun (next_tables h1) _

/-- C18 is violated for multiline styles: instead of the line types of its elements, a line type and
a text style with the name of the multiline style itself are added, and no other. -/
theorem C18_mline_style {d d' : Drawing Img} {o o' : Object} {s : Str} (hs : o.styleName = some s)
    (h : d.addObject o = .ok (o', d')) :
    d'.has .lineType s = true ∧ d'.has .style s = true ∧
    ∀ n, n ≠ s → d'.has .lineType n = d.has .lineType n := by
  obtain ⟨⟨hd, d1⟩, h1, h⟩ := bind_ok h
  obtain ⟨d2, h2, h⟩ := bind_ok h
  cases h
  have hs' : (o.setHandle hd).styleName = some s ∧ (o.setHandle hd).layers = [] ∧
      (o.setHandle hd).viewName = none := by
    obtain ⟨k, x, ex⟩ := o
    cases k
    case mLineStyle =>
      cases hs
      exact ⟨rfl, rfl, rfl⟩
    all_goals cases hs
  obtain ⟨d3, h3, h2⟩ := bind_ok h2
  obtain ⟨d4, h4, h2⟩ := bind_ok h2
  obtain ⟨d5, h5, h2⟩ := bind_ok h2
  obtain ⟨d6, h6, h2⟩ := bind_ok h2
  cases h2
  rw [hs'.2.1] at h3
  cases h3
  rw [hs'.2.2] at h6
  cases h6
  rw [hs'.1] at h4 h5
  obtain ⟨g4, r4⟩ := ensureAll_ok h4
  obtain ⟨g5, r5⟩ := ensureAll_ok h5
  refine ⟨g5.has (r4 s (by simp)), r5 s (by simp), fun n hn => ?_⟩
  change d5.has .lineType n = _
  rw [has_tables (ensureAll_tables h5 (by decide) (by decide))]
  have h6 : d1.ensure .lineType s = .ok d4 := by
    have := h4
    rw [Option.toList_some, ensureAll, List.foldlM_cons] at this
    obtain ⟨d7, h7, h8⟩ := bind_ok this
    cases h8
    exact h7
  have h7 : d4.has .lineType n = d1.has .lineType n := by
    unfold ensure at h6
    split at h6
    · cases h6
      rfl
    · obtain ⟨⟨y, d8⟩, h8, h9⟩ := bind_ok h6
      cases h9
      obtain ⟨hd', d9, d10, hn', hy, -, ht, rfl⟩ := add_ok h8
      have : TName.name .lineType y = s := by
        rw [hy, TName.name_setHandle, TName.name_named]
      unfold Drawing.has
      rw [push, tables_set, ht, List.any_append]
      simp [this, Ne.symm hn]
  rw [h7]
  exact has_tables (congrFun (next_tables h1) _) n

/-- Adding an entity, a block and an object does succeed. -/
example : ∃ d : Drawing Unit, ∃ r1 r2 r3 r4, d.Reachable ∧ d.addEntity EName.insert.plain = .ok r1 ∧
    d.addBlock { Block.dflt with entities := [EName.text.plain] } = .ok r2 ∧
    d.addObject (Object.mlineStyle str!"S") = .ok r3 ∧
    d.add .layer (TName.named .layer str!"L") = .ok r4 ∧
    (EName.text.plain).textStyle = some str!"STANDARD" ∧ d.has .style str!"STANDARD" = false := by
  obtain ⟨d, h⟩ := C13_total (Img := Unit) (h0 := Rec.dflt _) (fun _ _ => rfl) [] [.clear]
    (by decide +kernel)
  have hr : ∀ n, n < 1000 → Room n d ∧ d.has .style str!"STANDARD" = false := by
    obtain ⟨d0, -, h2⟩ := bind_ok h
    cases h2
    exact fun n hn => ⟨by change 1 + n < _; omega, rfl⟩
  obtain ⟨r1, h1, -⟩ := affords_entity d EName.insert.plain 0 (hr 18 (by decide)).1
  obtain ⟨r2, h2, -⟩ := affords_block d { Block.dflt with entities := [EName.text.plain] } 0
    (hr 10 (by decide)).1
  obtain ⟨r3, h3, -⟩ := affords_object d (Object.mlineStyle str!"S") 0 (hr 7 (by decide)).1
  obtain ⟨r4, h4, -⟩ := affords_add d .layer (TName.named .layer str!"L") 0 (hr 2 (by decide)).1
  exact ⟨d, r1, r2, r3, r4, ⟨_, _, _, fun _ _ => rfl, fun _ _ => trivial, h⟩, h1, h2, h3, h4, rfl,
    (hr 0 (by decide)).2⟩

/-! ### Owners (C46) -/

/-- C46, in part: an item that is in the drawing can be made the owner of another one, and is found
by the pointer. -/
theorem C46_partial {d : Drawing Img} (hd : d.Reachable) {x : DrawingItem} (hx : d.Stores x) :
    ∃ h, d.assignHandle x.handle = .ok (h, d) ∧ d.itemByHandle h = some x := by
  have h0 := ((C13 hd).2 _ (stores_handle hx)).1
  refine ⟨x.handle, if_neg ?_, (C14_lookup hd _ _).mpr ⟨hx, rfl⟩⟩
  intro hc
  rw [hc] at h0
  exact absurd h0 (by decide)

/-- C46 is violated: an item that is made the owner of another one and is added to the drawing
afterwards gets a new handle, and the pointer leads nowhere. -/
theorem C46_dangling {d d1 d2 : Drawing Img} (hd : d.Reachable) {t : TName} {x y : t.Item} {h : Handle}
    (h1 : d.assignHandle 0#64 = .ok (h, d1)) (h2 : d1.add t (t.setHandle x h) = .ok (y, d2)) :
    t.handle y ≠ h ∧ d2.itemByHandle h = none := by
  have hd1 : d1.Reachable := reach_step hd (op := .own 0#64) (by rw [Op.run, h1]; rfl)
  rw [assignHandle, if_pos rfl] at h1
  obtain ⟨rfl, -, hn1⟩ := nextHandle_ok h1
  obtain ⟨hst, hy, -⟩ := stores_add h2
  have hne : t.handle y ≠ d.next := by
    rw [hy, TName.handle_setHandle]
    intro hc
    rw [hc] at hn1
    omega
  refine ⟨hne, ?_⟩
  obtain ⟨hd', d3, d4, hn, hy', g, -, rfl⟩ := add_ok h2
  have hy2 : t.handle y = hd' := by rw [hy', TName.handle_setHandle]
  obtain ⟨rfl, he3, hn3⟩ := nextHandle_ok hn
  refine itemByHandle_none fun hm => ?_
  have hc := List.count_pos_iff.mpr hm
  rw [← handlesOf_none, count_push] at hc
  obtain ⟨fs, -, hb, hcf⟩ := g.fresh
  rw [hcf] at hc
  have z1 : (d3.handlesOf fun _ => []).count d.next = 0 := by
    rw [he3, handlesOf_header, handlesOf_none, List.count_eq_zero]
    intro hm
    obtain ⟨-, he1, -⟩ := nextHandle_ok h1
    have : d.next ∈ d.handles := by
      rw [← handlesOf_none] at hm ⊢
      rw [he1, handlesOf_header] at hm
      exact hm
    have := ((C13 hd).2 _ this).2
    simp [BitVec.lt_def] at this
  have z2 : fs.count d.next = 0 := by
    rw [List.count_eq_zero]
    intro hm
    have := (hb _ hm).1
    omega
  have z3 : [t.handle y].count d.next = 0 := by
    rw [List.count_eq_zero, List.mem_singleton]
    exact fun hc => hne hc.symm
  omega

end Dxf
