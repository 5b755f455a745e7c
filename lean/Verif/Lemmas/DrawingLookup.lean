import Verif.Lemmas.DrawingOps
import Mathlib.Data.List.Nodup

/-! Looking up items, and what remains of an item. -/

namespace Dxf

variable {Img : Type}

namespace Drawing

/-! ### Stored items -/

theorem mem_items (d : Drawing Img) (x : DrawingItem) : x ∈ d.items ↔ d.Stores x := by
  have key : ∀ (t : TName), x ∈ d.tableItems t ↔ ∃ y ∈ d.tables t, DrawingItem.table t y = x := by
    intro t
    simp [tableItems]
  simp only [items, List.mem_append, key, List.mem_map]
  cases x with
  | table t y =>
    simp only [Stores]
    constructor
    · intro h
      simp only [DrawingItem.table.injEq, reduceCtorEq, and_false, exists_false, or_false] at h
      cases t <;> simpa using h
    · intro h
      cases t <;> simp [h]
  | block b => simp [Stores]
  | entity b => simp [Stores]
  | object b => simp [Stores]

theorem handles_items (d : Drawing Img) (h : Handle) :
    (d.items.map DrawingItem.handle).count h ≤ d.handles.count h := by
  have key : ∀ (t : TName), (d.tableItems t).map DrawingItem.handle = (d.tables t).map t.handle := by
    intro t
    simp only [tableItems, List.map_map]
    rfl
  have k1 : (d.blocks.map DrawingItem.block).map DrawingItem.handle = d.blocks.map Block.handle := by
    rw [List.map_map]
    rfl
  have k2 : (d.entities.map DrawingItem.entity).map DrawingItem.handle =
      d.entities.map Entity.handle := by
    rw [List.map_map]
    rfl
  have k3 : (d.objects.map DrawingItem.object).map DrawingItem.handle =
      d.objects.map Object.handle := by
    rw [List.map_map]
    rfl
  simp only [items, handles, List.map_append, key, k1, k2, k3, List.count_append, tables_count]
  omega

theorem stores_handle {d : Drawing Img} {x : DrawingItem} (h : d.Stores x) : x.handle ∈ d.handles := by
  have h1 := handles_items d x.handle
  have h2 : x.handle ∈ d.items.map DrawingItem.handle :=
    List.mem_map_of_mem ((mem_items d x).mpr h)
  have h3 := List.count_pos_iff.mpr h2
  exact List.count_pos_iff.mp (by omega)

/-- Two stored items with the same handle are the same. -/
theorem stores_unique {d : Drawing Img} (hs : d.Sound) {x y : DrawingItem} (hx : d.Stores x)
    (hy : d.Stores y) (h : x.handle = y.handle) : x = y := by
  have hn : (d.items.map DrawingItem.handle).Nodup := List.nodup_iff_count.mpr fun h =>
    Nat.le_trans (handles_items d h) (List.nodup_iff_count.mp hs.1 h)
  exact List.inj_on_of_nodup_map hn ((mem_items d x).mpr hx) ((mem_items d y).mpr hy) h

theorem itemByHandle_iff {d : Drawing Img} (hs : d.Sound) (h : Handle) (x : DrawingItem) :
    d.itemByHandle h = some x ↔ d.Stores x ∧ x.handle = h := by
  constructor
  · intro hf
    have h1 := List.mem_of_find?_eq_some hf
    have h2 := List.find?_some hf
    exact ⟨(mem_items d x).mp h1, by simpa using h2⟩
  · rintro ⟨hx, rfl⟩
    have : (d.itemByHandle x.handle).isSome := by
      unfold itemByHandle
      rw [List.find?_isSome]
      exact ⟨x, (mem_items d x).mpr hx, by simp⟩
    obtain ⟨y, hy⟩ := Option.isSome_iff_exists.mp this
    have h1 := (mem_items d y).mp (List.mem_of_find?_eq_some hy)
    have h2 : y.handle = x.handle := by simpa using List.find?_some hy
    rw [hy, stores_unique hs h1 hx h2]

theorem itemByHandle_none {d : Drawing Img} {h : Handle} (hh : h ∉ d.handles) :
    d.itemByHandle h = none := by
  unfold itemByHandle
  rw [List.find?_eq_none]
  intro x hx hc
  have : x.handle = h := by simpa using hc
  exact hh (this ▸ stores_handle ((mem_items d x).mp hx))

/-! ### Mutable lookup -/

theorem find_map {α : Type} (l : List α) (f : α → DrawingItem) (p : DrawingItem → Bool) :
    (l.map f).find? p = ((l.findIdx? fun x => p (f x)).bind (l[·]?)).map f := by
  rw [List.find?_map]
  congr 1
  induction l with
  | nil => rfl
  | cons x xs ih =>
    rw [List.find?_cons, List.findIdx?_cons]
    by_cases hp : p (f x) = true
    · simp [hp]
    · simp only [Function.comp_apply, hp, ih]
      cases List.findIdx? (fun x => p (f x)) xs <;> simp

theorem slot_table (d : Drawing Img) (h : Handle) (t : TName) :
    (d.tableSlot h t).bind d.at = (d.tableItems t).find? fun x => x.handle == h := by
  rw [tableItems, find_map, tableSlot]
  change _ = Option.map _ (((d.tables t).findIdx? fun x => t.handle x == h).bind _)
  cases (d.tables t).findIdx? fun x => t.handle x == h <;> rfl

theorem slot_block (d : Drawing Img) (h : Handle) :
    ((d.blocks.findIdx? fun b => b.handle == h).map Slot.block).bind d.at =
      (d.blocks.map DrawingItem.block).find? fun x => x.handle == h := by
  rw [find_map]
  change _ = Option.map _ ((d.blocks.findIdx? fun b => b.handle == h).bind _)
  cases d.blocks.findIdx? fun b => b.handle == h <;> rfl

theorem slot_entity (d : Drawing Img) (h : Handle) :
    ((d.entities.findIdx? fun b => b.handle == h).map Slot.entity).bind d.at =
      (d.entities.map DrawingItem.entity).find? fun x => x.handle == h := by
  rw [find_map]
  change _ = Option.map _ ((d.entities.findIdx? fun b => b.handle == h).bind _)
  cases d.entities.findIdx? fun b => b.handle == h <;> rfl

theorem slot_object (d : Drawing Img) (h : Handle) :
    ((d.objects.findIdx? fun b => b.handle == h).map Slot.object).bind d.at =
      (d.objects.map DrawingItem.object).find? fun x => x.handle == h := by
  rw [find_map]
  change _ = Option.map _ ((d.objects.findIdx? fun b => b.handle == h).bind _)
  cases d.objects.findIdx? fun b => b.handle == h <;> rfl

theorem at_table (d : Drawing Img) (h : Handle) (t : TName) {s : Slot}
    (hs : d.tableSlot h t = some s) : (d.at s).isSome := by
  unfold tableSlot at hs
  cases hi : (d.tables t).findIdx? fun x => t.handle x == h with
  | none => simp [hi] at hs
  | some i =>
    simp only [hi, Option.map_some, Option.some.injEq] at hs
    subst hs
    have := (List.findIdx?_eq_some_iff_findIdx_eq.mp hi).1
    simp [Drawing.at, this]

/-- A place found exists. -/
def Valid (d : Drawing Img) (o : Option Slot) : Prop := ∀ s, o = some s → (d.at s).isSome

theorem orElse_at {d : Drawing Img} {a b : Option Slot} (ha : d.Valid a) :
    (a <|> b).bind d.at = (a.bind d.at).or (b.bind d.at) := by
  cases a with
  | none => simp
  | some s =>
    obtain ⟨x, hx⟩ := Option.isSome_iff_exists.mp (ha s rfl)
    simp [hx]

theorem valid_map {α : Type} {d : Drawing Img} {l : List α} {p : α → Bool} {f : Nat → Slot}
    (h : ∀ i, i < l.length → (d.at (f i)).isSome) : d.Valid ((l.findIdx? p).map f) := by
  intro s hs
  cases hi : l.findIdx? p with
  | none => simp [hi] at hs
  | some i =>
    simp only [hi, Option.map_some, Option.some.injEq] at hs
    subst hs
    exact h i (List.findIdx?_eq_some_iff_findIdx_eq.mp hi).1

theorem mut_eq (d : Drawing Img) (h : Handle) :
    (d.itemByHandleMut h).bind d.at = d.itemByHandle h := by
  have vt : ∀ t, d.Valid (d.tableSlot h t) := fun t s hs => at_table d h t hs
  have vb : d.Valid ((d.blocks.findIdx? fun b => b.handle == h).map Slot.block) :=
    valid_map fun i hi => by simp [Drawing.at, hi]
  have ve : d.Valid ((d.entities.findIdx? fun b => b.handle == h).map Slot.entity) :=
    valid_map fun i hi => by simp [Drawing.at, hi]
  have vo : d.Valid ((d.objects.findIdx? fun b => b.handle == h).map Slot.object) :=
    valid_map fun i hi => by simp [Drawing.at, hi]
  unfold itemByHandleMut itemByHandle items
  rw [orElse_at (vt _), orElse_at vb, orElse_at (vt _), orElse_at (vt _), orElse_at ve,
    orElse_at (vt _), orElse_at (vt _), orElse_at vo, orElse_at (vt _), orElse_at (vt _),
    orElse_at (vt _)]
  simp only [slot_table, slot_block, slot_entity, slot_object, List.find?_append, Option.or_assoc]

/-! ### Items stay -/

theorem Grows.stores {d d' : Drawing Img} (g : Grows d d') {x : DrawingItem} (h : d.Stores x) :
    d'.Stores x := by
  cases x with
  | table t y =>
    obtain ⟨new, hn, -⟩ := g.tables t
    simp only [Stores, hn]
    exact List.mem_append_left _ h
  | block b =>
    simp only [Stores, g.blocks]
    exact h
  | entity e =>
    simp only [Stores, g.entities]
    exact h
  | object o =>
    obtain ⟨new, hn, -⟩ := g.objects
    simp only [Stores, hn]
    exact List.mem_append_left _ h

theorem stores_push {d : Drawing Img} {t : TName} {y : t.Item} {x : DrawingItem} (h : d.Stores x) :
    (d.push t y).Stores x := by
  cases x with
  | table t' z =>
    simp only [Stores] at h ⊢
    by_cases ht : t = t'
    · subst ht
      rw [push, tables_set]
      exact List.mem_append_left _ h
    · rw [push, tables_set_ne _ _ ht]
      exact h
  | block b => exact h
  | entity e => exact h
  | object o => exact h

theorem stores_objects {d : Drawing Img} {l : List Object} {x : DrawingItem} (h : d.Stores x) :
    ({ d with objects := d.objects ++ l } : Drawing Img).Stores x := by
  cases x with
  | object o => exact List.mem_append_left _ h
  | _ => exact h

theorem stores_entities {d : Drawing Img} {l : List Entity} {x : DrawingItem} (h : d.Stores x) :
    ({ d with entities := d.entities ++ l } : Drawing Img).Stores x := by
  cases x with
  | entity o => exact List.mem_append_left _ h
  | _ => exact h

theorem stores_blocks {d : Drawing Img} {l : List Block} {x : DrawingItem} (h : d.Stores x) :
    ({ d with blocks := d.blocks ++ l } : Drawing Img).Stores x := by
  cases x with
  | block o => exact List.mem_append_left _ h
  | _ => exact h

theorem stores_add {d d' : Drawing Img} {t : TName} {y z : t.Item} (h : d.add t y = .ok (z, d')) :
    d'.Stores (.table t z) ∧ z = t.setHandle y d.next ∧ ∀ x, d.Stores x → d'.Stores x := by
  obtain ⟨hd, d1, d2, hn, rfl, g, -, rfl⟩ := add_ok h
  refine ⟨?_, ?_, fun x hx => ?_⟩
  · simp [Stores, push, tables_set]
  · rw [(nextHandle_ok hn).1]
  · exact stores_push (g.stores ((grows_next hn).stores hx))

theorem stores_addObject {d d' : Drawing Img} {o o' : Object} (h : d.addObject o = .ok (o', d')) :
    d'.Stores (.object o') ∧ o' = o.setHandle d.next ∧ ∀ x, d.Stores x → d'.Stores x := by
  obtain ⟨hd, d1, d2, hn, rfl, g, -, -, rfl⟩ := addObject_ok h
  refine ⟨?_, ?_, fun x hx => ?_⟩
  · simp [Stores]
  · rw [(nextHandle_ok hn).1]
  · exact stores_objects (g.stores ((grows_next hn).stores hx))

theorem stores_addEntity {d d' : Drawing Img} {e e' : Entity} (h : d.addEntity e = .ok (e', d')) :
    d'.Stores (.entity e') ∧ e'.toFlat = (e.setHandle d.next).toFlat ∧
      ∀ x, d.Stores x → d'.Stores x := by
  obtain ⟨hd, d1, fs, d2, d3, hn, ht, hf, hu, g, -, rfl⟩ := addEntity_ok h
  refine ⟨?_, ?_, fun x hx => ?_⟩
  · simp [Stores]
  · rw [← (nextHandle_ok hn).1]
    exact hf
  · exact stores_entities (g.stores (ht.grows.stores ((grows_next hn).stores hx)))

theorem stores_addBlock {d d' : Drawing Img} {b b' : Block} (h : d.addBlock b = .ok (b', d')) :
    d'.Stores (.block b') ∧ b'.entry = (b.setHandle d.next).entry ∧
      List.Forall₂ (fun e e' => ∃ hd, e' = e.setHandle hd) b.entities b'.entities ∧
      ∀ x, d.Stores x → d'.Stores x := by
  obtain ⟨⟨hd, d1⟩, h1, h⟩ := bind_ok h
  obtain ⟨d2, y, d3, d4, g, -, -, ha, ht, hf, hb, rfl⟩ := addBlockNoHandle_ok h
  refine ⟨?_, ?_, hf, fun x hx => ?_⟩
  · simp [Stores]
  · rw [hb, ← (nextHandle_ok h1).1]
  · exact stores_blocks (ht.grows.stores ((stores_add ha).2.2 x
      (g.stores ((grows_next h1).stores hx))))

theorem stores_normalize {order : List Str} {d d' : Drawing Img} (h : d.normalize order = .ok d')
    {x : DrawingItem} (hx : d.Stores x) : d'.Stores x.normalize := by
  obtain ⟨d1, d2, g1, g2, rfl, -⟩ := normalize_ok h
  have key : ∀ y : DrawingItem, d2.Stores y → d2.sorted.Stores y := by
    intro y hy
    cases y with
    | table t z => exact (perm_sorted d2 t).mem_iff.mpr hy
    | block _ => exact hy
    | entity _ => exact hy
    | object _ => exact hy
  refine key _ (g2.stores ?_)
  cases x with
  | table t y =>
    have := g1.stores (x := .table t y) hx
    exact List.mem_map_of_mem this
  | block b => exact g1.stores (x := .block b.normalize) (List.mem_map_of_mem (f := Block.normalize) hx)
  | entity e =>
    exact g1.stores (x := .entity e.normalize) (List.mem_map_of_mem (f := Entity.normalize) hx)
  | object o => exact g1.stores (x := .object o) hx

theorem mem_erase {α : Type} {l : List α} {i : Nat} {x : α} (hx : x ∈ l) (h : l[i]? ≠ some x) :
    x ∈ l.eraseIdx i := by
  rw [List.mem_eraseIdx_iff_getElem?]
  obtain ⟨j, hj⟩ := List.mem_iff_getElem?.mp hx
  exact ⟨j, fun hc => h (hc ▸ hj), hj⟩

end Drawing

open Drawing

theorem DrawingItem.handle_normalize (x : DrawingItem) : x.normalize.handle = x.handle := by
  cases x with
  | table t y => exact TName.handle_normalize t y
  | _ => rfl

theorem stores_step {d d' : Drawing Img} {op : Op} (h : op.run d = .ok d') {x : DrawingItem}
    (hx : d.Stores x) (hr : ¬ op.Removes d x) :
    d'.Stores x ∨ (d'.Stores x.normalize ∧ ∃ order, op = .normalize order) := by
  have key : ∀ {α : Type} {r : Except DxfErr (α × Drawing Img)}, r.map (·.2) = .ok d' →
      ∃ a, r = .ok (a, d') := by
    intro α r hr
    cases r with
    | error => cases hr
    | ok a =>
      cases hr
      exact ⟨a.1, rfl⟩
  cases op with
  | add t y =>
    obtain ⟨z, hz⟩ := key h
    exact .inl ((stores_add hz).2.2 x hx)
  | addBlock b =>
    obtain ⟨z, hz⟩ := key h
    exact .inl ((stores_addBlock hz).2.2.2 x hx)
  | addEntity e =>
    obtain ⟨z, hz⟩ := key h
    exact .inl ((stores_addEntity hz).2.2 x hx)
  | addObject o =>
    obtain ⟨z, hz⟩ := key h
    exact .inl ((stores_addObject hz).2.2 x hx)
  | remove t i =>
    cases h
    left
    simp only [Op.Removes] at hr
    simp only [remove, removeItem_eq]
    cases x with
    | table t' y =>
      simp only [Stores] at hx ⊢
      by_cases ht : t = t'
      · subst ht
        rw [tables_set]
        exact mem_erase hx fun hc => hr ⟨y, hc, rfl⟩
      · rw [tables_set_ne _ _ ht]
        exact hx
    | block _ => exact hx
    | entity _ => exact hx
    | object _ => exact hx
  | removeBlock i =>
    cases h
    left
    simp only [Op.Removes] at hr
    simp only [removeBlock, removeItem_eq]
    cases x with
    | block y => exact mem_erase hx fun hc => hr ⟨y, hc, rfl⟩
    | _ => exact hx
  | removeEntity i =>
    cases h
    left
    simp only [Op.Removes] at hr
    simp only [removeEntity, removeItem_eq]
    cases x with
    | entity y => exact mem_erase hx fun hc => hr ⟨y, hc, rfl⟩
    | _ => exact hx
  | removeObject i =>
    cases h
    left
    simp only [Op.Removes] at hr
    simp only [removeObject, removeItem_eq]
    cases x with
    | object y => exact mem_erase hx fun hc => hr ⟨y, hc, rfl⟩
    | _ => exact hx
  | clear => exact absurd trivial hr
  | normalize order => exact .inr ⟨stores_normalize h hx, order, rfl⟩
  | own hd =>
    obtain ⟨y, hy⟩ := key h
    unfold assignHandle at hy
    split at hy
    · exact .inl ((grows_next hy).stores hx)
    · cases hy
      exact .inl hx

/-! ### Children of entities added again -/

theorem attHandles_keep (as : List Att) (d : Drawing Img)
    (h : ∀ a ∈ as, a.handle ≠ autoReplaceHandle) : attHandles as d = .ok (as, d) := by
  induction as generalizing d with
  | nil => rfl
  | cons a as ih =>
    rw [attHandles, childHandle, if_neg (h a List.mem_cons_self)]
    change (attHandles as d >>= _) = _
    rw [ih d fun a ha => h a (List.mem_cons_of_mem _ ha)]
    rfl

theorem vertHandles_keep (vs : List Vert) (d : Drawing Img)
    (h : ∀ a ∈ vs, a.handle ≠ autoReplaceHandle) : vertHandles vs d = .ok (vs, d) := by
  induction vs generalizing d with
  | nil => rfl
  | cons a as ih =>
    rw [vertHandles, childHandle, if_neg (h a List.mem_cons_self)]
    change (vertHandles as d >>= _) = _
    rw [ih d fun a ha => h a (List.mem_cons_of_mem _ ha)]
    rfl

theorem attHandles_length {as as' : List Att} {d d' : Drawing Img}
    (h : attHandles as d = .ok (as', d')) : as'.length = as.length := by
  induction as generalizing d as' with
  | nil =>
    cases h
    rfl
  | cons a as ih =>
    obtain ⟨⟨hd, d1⟩, h1, h⟩ := bind_ok h
    obtain ⟨⟨bs, d2⟩, h2, h⟩ := bind_ok h
    cases h
    simp [ih h2]

theorem vertHandles_length {as as' : List Vert} {d d' : Drawing Img}
    (h : vertHandles as d = .ok (as', d')) : as'.length = as.length := by
  induction as generalizing d as' with
  | nil =>
    cases h
    rfl
  | cons a as ih =>
    obtain ⟨⟨hd, d1⟩, h1, h⟩ := bind_ok h
    obtain ⟨⟨bs, d2⟩, h2, h⟩ := bind_ok h
    cases h
    simp [ih h2]

theorem addEntity_insert {d d' : Drawing Img} {e e' : Entity} (hk : e.kind = .insert)
    (h : d.addEntity e = .ok (e', d')) : ∃ d1 d2 : Drawing Img,
      attHandles e.extra.atts d1 = .ok (e'.extra.atts, d2) ∧ e'.kind = .insert ∧
      e'.extra.verts = e.extra.verts := by
  obtain ⟨⟨hd, d1⟩, h1, h⟩ := bind_ok h
  obtain ⟨⟨e2, d2⟩, h2, h⟩ := bind_ok h
  obtain ⟨d3, h3, h⟩ := bind_ok h
  cases h
  have hk' : (e.setHandle hd).kind = .insert := hk
  rw [childHandles, if_pos hk'] at h2
  obtain ⟨⟨s, d4⟩, h4, h2⟩ := bind_ok h2
  obtain ⟨⟨as, d5⟩, h5, h2⟩ := bind_ok h2
  cases h2
  exact ⟨_, _, h5, hk, rfl⟩

theorem addEntity_polyline {d d' : Drawing Img} {e e' : Entity} (hk : e.kind = .polyline)
    (h : d.addEntity e = .ok (e', d')) : ∃ d1 d2 : Drawing Img,
      vertHandles e.extra.verts d1 = .ok (e'.extra.verts, d2) ∧ e'.kind = .polyline := by
  obtain ⟨⟨hd, d1⟩, h1, h⟩ := bind_ok h
  obtain ⟨⟨e2, d2⟩, h2, h⟩ := bind_ok h
  obtain ⟨d3, h3, h⟩ := bind_ok h
  cases h
  have hk' : (e.setHandle hd).kind = .polyline := hk
  rw [childHandles, if_neg (by rw [hk']; decide), if_pos hk'] at h2
  obtain ⟨⟨s, d4⟩, h4, h2⟩ := bind_ok h2
  obtain ⟨⟨as, d5⟩, h5, h2⟩ := bind_ok h2
  cases h2
  exact ⟨_, _, h5, hk⟩

theorem taken_not_auto {d d' : Drawing Img} {fs : List Handle} (ht : Taken d d' fs) {h : Handle}
    (hh : h ∈ fs) : h ≠ autoReplaceHandle := by
  rintro rfl
  have h1 := (ht.bounds _ hh).2
  have h2 := d'.next.isLt
  have h3 : BitVec.toNat autoReplaceHandle = 2 ^ 64 - 1 := by decide
  omega

/-- The entities after adding two. -/
theorem addEntity_twice {d d1 d2 : Drawing Img} {e e1 e1' e2 : Entity}
    (h1 : d.addEntity e = .ok (e1, d1)) (h2 : d1.addEntity e1' = .ok (e2, d2)) :
    ∃ es, d2.entities = es ++ [e1] ++ [e2] := by
  obtain ⟨hd, da, fs, db, dc, hn, ht, hf, -, g, -, rfl⟩ := addEntity_ok h1
  obtain ⟨hd', da', fs', db', dc', hn', ht', hf', -, g', -, rfl⟩ := addEntity_ok h2
  refine ⟨dc.entities, ?_⟩
  change dc'.entities ++ [e2] = _
  rw [g'.entities, ht'.grows.entities, (grows_next hn').entities]

/-- Two entities at the end that share a handle of a child. -/
theorem shared_child {d : Drawing Img} {es : List Entity} {e e' : Entity}
    (h : d.entities = es ++ [e] ++ [e']) {x : Handle} (h1 : x ∈ e.childHandles)
    (h2 : x ∈ e'.childHandles) : ¬ d.DeepSound := by
  intro hs
  have hc := List.nodup_iff_count.mp hs.1 x
  have e1 := List.count_pos_iff.mpr h1
  have e2 := List.count_pos_iff.mpr h2
  simp only [deepHandles, h, List.count_append, List.flatMap_append, List.flatMap_cons,
    List.flatMap_nil, List.append_nil] at hc
  omega

theorem forall2_mem {α : Type} {R : α → α → Prop} {l l' : List α} (h : List.Forall₂ R l l') {x : α}
    (hx : x ∈ l) : ∃ y ∈ l', R x y := by
  induction h with
  | nil => cases hx
  | cons hr _ ih =>
    rcases List.mem_cons.mp hx with rfl | hx
    · exact ⟨_, List.mem_cons_self, hr⟩
    · obtain ⟨y, hy, hr⟩ := ih hx
      exact ⟨y, List.mem_cons_of_mem _ hy, hr⟩

theorem forall2_mem' {α : Type} {R : α → α → Prop} {l l' : List α} (h : List.Forall₂ R l l') {y : α}
    (hy : y ∈ l') : ∃ x ∈ l, R x y := by
  induction h with
  | nil => cases hy
  | cons hr _ ih =>
    rcases List.mem_cons.mp hy with rfl | hy
    · exact ⟨_, List.mem_cons_self, hr⟩
    · obtain ⟨x, hx, hr⟩ := ih hy
      exact ⟨x, List.mem_cons_of_mem _ hx, hr⟩

/-- A removed item is no longer stored. -/
theorem not_stores_removed {d d' : Drawing Img} (hs : d.Sound) {op : Op} (h : op.run d = .ok d')
    {x : DrawingItem} (hr : op.Removes d x) : x.handle ∉ d'.items.map DrawingItem.handle := by
  have cnt : ∀ {α : Type} (f : α → Handle) (l : List α) (i : Nat) (y : α), l[i]? = some y →
      ((l.eraseIdx i).map f).count (f y) + 1 = (l.map f).count (f y) := by
    intro α f l
    induction l with
    | nil => intro i y hy; cases hy
    | cons z zs ih =>
      intro i y hy
      cases i with
      | zero =>
        cases hy
        simp
      | succ i =>
        have := ih i y hy
        simp only [List.eraseIdx_cons_succ, List.map_cons, List.count_cons]
        omega
  suffices hc : d'.handles.count x.handle = 0 by
    intro hm
    have := handles_items d' x.handle
    have := List.count_pos_iff.mpr hm
    omega
  have hcount := List.nodup_iff_count.mp hs.1 x.handle
  rw [← handlesOf_none] at hcount ⊢
  cases op with
  | remove t i =>
    obtain ⟨y, hy, rfl⟩ := hr
    cases h
    simp only [remove, removeItem_eq]
    have h1 := count_setTable (c := fun _ => []) d t ((d.tables t).eraseIdx i) (t.handle y)
    have h2 := cnt t.handle (d.tables t) i y hy
    simp only [DrawingItem.handle] at hcount ⊢
    omega
  | removeBlock i =>
    obtain ⟨y, hy, rfl⟩ := hr
    cases h
    have h2 := cnt Block.handle d.blocks i y hy
    have h3 := count_flatMap_erase (fun b : Block => b.entities.map Entity.handle) d.blocks i y.handle
    simp only [removeBlock, removeItem_eq, handlesOf_none, handles, List.count_append,
      DrawingItem.handle] at hcount ⊢
    omega
  | removeEntity i =>
    obtain ⟨y, hy, rfl⟩ := hr
    cases h
    have h2 := cnt Entity.handle d.entities i y hy
    simp only [removeEntity, removeItem_eq, handlesOf_none, handles, List.count_append,
      DrawingItem.handle] at hcount ⊢
    omega
  | removeObject i =>
    obtain ⟨y, hy, rfl⟩ := hr
    cases h
    have h2 := cnt Object.handle d.objects i y hy
    simp only [removeObject, removeItem_eq, handlesOf_none, handles, List.count_append,
      DrawingItem.handle] at hcount ⊢
    omega
  | clear =>
    cases h
    simp [handlesOf_none, handles, Drawing.clear, TName.all]
  | add | addBlock | addEntity | addObject | normalize | own => exact absurd hr id

end Dxf
