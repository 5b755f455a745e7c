import Verif.Lemmas.Refs
import Verif.Props.Lookup
import Verif.Props.Drawing

/-! References to items: C54. -/

namespace Dxf

open Drawing

variable {Img : Type} {d : Drawing Img} {ds : List Decl}

/-! ### C54: getting and setting -/

/-- C54: following a pointer gives the items of the drawing that have its handles and are of its
type, and nothing else. -/
theorem C54_get (hd : d.Sound) (p : Pointer) (r : Rec ds) (y : DrawingItem) :
    y ∈ p.get d r ↔
      y.handle ∈ (tyAt ds p.field).refs (r p.field) ∧ d.Stores y ∧ p.typ.Means y := by
  rw [← RefType.admits_iff]
  unfold Pointer.get
  rw [List.mem_filterMap]
  constructor
  · rintro ⟨h, hm, hy⟩
    rw [Option.filter_eq_some_iff] at hy
    obtain ⟨hst, rfl⟩ := (itemByHandle_iff hd h y).mp hy.1
    exact ⟨hm, hst, hy.2⟩
  · rintro ⟨hm, hst, ha⟩
    exact ⟨_, hm, Option.filter_eq_some_iff.mpr ⟨(itemByHandle_iff hd _ y).mpr ⟨hst, rfl⟩, ha⟩⟩

theorem DrawingItem.admits_normalize (x : DrawingItem) (typ : RefType) :
    typ.admits x.normalize = typ.admits x := by
  cases x <;> rcases typ with _ | _ | (_ | _) | (_ | _) <;> rfl

/-- What `set` and `add` do to a record, if they succeed. -/
theorem set_then_get (hd : d.Sound) {p : Pointer} (ht : (tyAt ds p.field).IsRef) {r r' : Rec ds}
    {x : DrawingItem} (hx : d.Stores x) (h : p.set r x = .ok r') :
    p.get d r' = (if tyAt ds p.field = .handle then [x] else p.get d r ++ [x]) ∧
      ∀ j, j ≠ p.field → r' j = r j := by
  unfold Pointer.set at h
  split at h
  · rename_i ha
    cases h
    refine ⟨?_, fun j hj => Rec.set_ne _ _ hj⟩
    have e : ([x.handle].filterMap fun h => (d.itemByHandle h).filter p.typ.admits) = [x] := by
      rw [List.filterMap_cons, (itemByHandle_iff hd _ x).mpr ⟨hx, rfl⟩, Option.filter_some, if_pos ha]
      rfl
    unfold Pointer.get
    rw [Rec.set_self, Ty.refs_store ht]
    split
    · exact e
    · rw [List.filterMap_append, e]
  · cases h

/-- C54: setting a pointer of an entity to an item of the drawing and following it gives that item;
with several items, adding one and following the pointer gives the items from before and that one.
Nothing else changes.  Items that are not of the type of the pointer are refused. -/
theorem C54_entity (hd : d.Sound) (k : EName) {p : Pointer} (hp : p ∈ k.pointers)
    (r : Rec k.decls) {x : DrawingItem} (hx : d.Stores x) :
    (p.typ.Means x → ∃ r', p.set r x = .ok r' ∧
      p.get d r' = (if tyAt k.decls p.field = .handle then [x] else p.get d r ++ [x]) ∧
      ∀ j, j ≠ p.field → r' j = r j) ∧
    (¬ p.typ.Means x → p.set r x = .error .wrongItemType) := by
  rw [← RefType.admits_iff]
  refine ⟨fun ha => ?_, fun ha => ?_⟩
  · obtain ⟨r', h⟩ : ∃ r', p.set r x = .ok r' := ⟨_, by rw [Pointer.set, if_pos ha]⟩
    exact ⟨r', h, set_then_get hd (k.pointers_isRef hp) hx h⟩
  · rw [Pointer.set, if_neg ha]

/-- C54 for the pointers of objects. -/
theorem C54_object (hd : d.Sound) (k : OName) {p : Pointer} (hp : p ∈ k.pointers)
    (r : Rec k.decls) {x : DrawingItem} (hx : d.Stores x) :
    (p.typ.Means x → ∃ r', p.set r x = .ok r' ∧
      p.get d r' = (if tyAt k.decls p.field = .handle then [x] else p.get d r ++ [x]) ∧
      ∀ j, j ≠ p.field → r' j = r j) ∧
    (¬ p.typ.Means x → p.set r x = .error .wrongItemType) := by
  rw [← RefType.admits_iff]
  refine ⟨fun ha => ?_, fun ha => ?_⟩
  · obtain ⟨r', h⟩ : ∃ r', p.set r x = .ok r' := ⟨_, by rw [Pointer.set, if_pos ha]⟩
    exact ⟨r', h, set_then_get hd (k.pointers_isRef hp) hx h⟩
  · rw [Pointer.set, if_neg ha]

/-- C54: a pointer to an item still leads to it after any operation on the drawing that does not
remove the item; afterwards it does not. -/
theorem C54_later (hd : d.Reachable) {d' : Drawing Img} {op : Op} (h : op.run d = .ok d')
    (p : Pointer) (r : Rec ds) {x : DrawingItem} (hx : x ∈ p.get d r) :
    (op.Removes d x → ∀ y ∈ p.get d' r, y.handle ≠ x.handle) ∧
    (¬ op.Removes d x →
      x ∈ p.get d' r ∨ (x.normalize ∈ p.get d' r ∧ ∃ order, op = .normalize order)) := by
  have hd' := C13 (reach_step hd h)
  obtain ⟨hm, hst, ha⟩ := (C54_get (C13 hd) p r x).mp hx
  refine ⟨fun hr y hy e => ?_, fun hr => ?_⟩
  · have := C14_removed hd h hr
    have hy := (C54_get hd' p r y).mp hy
    rw [(itemByHandle_iff hd' _ y).mpr ⟨hy.2.1, e⟩] at this
    cases this
  · rcases C14_stays hd h ((C14_lookup hd _ x).mpr ⟨hst, rfl⟩) hr with h1 | ⟨h1, h2⟩
    · exact .inl ((C54_get hd' p r x).mpr ⟨hm, ((itemByHandle_iff hd' _ _).mp h1).1, ha⟩)
    · refine .inr ⟨(C54_get hd' p r _).mpr ⟨?_, ((itemByHandle_iff hd' _ _).mp h1).1, ?_⟩, h2⟩
      · rw [x.handle_normalize]
        exact hm
      · rw [← RefType.admits_iff, x.admits_normalize]
        exact (RefType.admits_iff _ _).mpr ha

/-! ### C54: saving and loading -/

/-- C54: the pointers of a loaded item lead to the same items as before saving, as far as the
version has these.  (Partial: for drawings as in C41 and C42, and pointers that are written and read
back.) -/
theorem C54_saved_partial {codec : ImageCodec Img} {h0 : Header} (hfr : h0.Fresh) (order : List Str)
    (ho : 41 + 2 * order.length < 2 ^ 64)
    (hf : d.Faithful codec) (hroom : d.next.toNat + d.demand < 2 ^ 64) (hs : d.Sound)
    (hp : 0#64 < d.next) (hw : d.writeHandles = true) {x : DrawingItem} (hx : d.Stores x)
    (hfx : x.Filed d.version) :
    ∃ ps d' y, d.codePairs codec = .ok ps ∧ load codec h0 order (toStream ps) = (.ok d', []) ∧
      d'.itemByHandle x.handle = some y ∧ x.Restored d.version y ∧
      ∀ p ∈ x.pointers, x.Carries d.version p → (∀ h ∈ x.refHandles p, h < d.next) →
        List.Forall₂ (DrawingItem.Restored d.version)
          ((x.refs d p).filter fun z => z.Filed d.version) (y.refs d' p) := by
  obtain ⟨ps, d', h1, h2, fwd, bwd⟩ := C53_partial hfr order ho hf hroom hs hp hw
  obtain ⟨y, hy, hxy⟩ := fwd _ x ((itemByHandle_iff hs _ x).mpr ⟨hx, rfl⟩) hfx
  refine ⟨ps, d', y, h1, h2, hy, hxy, fun p hpm hc hlt => ?_⟩
  rw [DrawingItem.refs_eq, DrawingItem.refs_eq, DrawingItem.pointers_restored hxy hpm hc]
  exact filterMap_restored p.typ (fun h _ x hx hf => fwd h x hx hf)
    (fun h hm y hy => bwd h y (hlt h hm) hy)

/-- C54 fails for the entities of an `IdBuffer` (and of a `SectionManager`, C22): the owner of the
buffer is read as one of its entities. -/
theorem C54_buffer :
    (OName.idBuffer.again .r2018 (Rec.set (Rec.set (Rec.dflt OName.idBuffer.decls) 1 (5#64 : Handle)) 2
      ([7#64] : List Handle)) {}).map
      (fun o => o.map fun (r, _) => ((show Handle from r 1), (show List Handle from r 2))) =
      .ok (some (0#64, [5#64, 7#64])) := by
  decide +kernel

/-! ### The hypotheses can be met -/

/-- A drawing with a group of one multiline. -/
def groupDrawing : Drawing Unit := { sampleDrawing with
  objects := [⟨.group, ⟨Rec.set (Rec.set (Rec.dflt _) 5 ([8#64] : List Handle)) 0 (9#64 : Handle),
    [], []⟩, {}⟩] }

theorem groupDrawing_sound : groupDrawing.Sound := by
  have hn : groupDrawing.next = 0x100#64 := rfl
  have hh : groupDrawing.handles = [5#64, 6#64, 7#64, 8#64, 9#64] := rfl
  unfold Sound
  rw [hn, hh]
  exact ⟨by decide, sampleHandles⟩

/-- The group refers to the multiline, and not to the layer, which cannot be added to it. -/
example (codec : ImageCodec Unit) : groupDrawing.Faithful codec ∧
    groupDrawing.next.toNat + groupDrawing.demand < 2 ^ 64 ∧ groupDrawing.Sound ∧
    0#64 < groupDrawing.next ∧ groupDrawing.writeHandles = true ∧
    ∃ x e l, groupDrawing.Stores x ∧ x.Filed groupDrawing.version ∧ groupDrawing.Stores l ∧
      ∃ p ∈ x.pointers, x.Carries groupDrawing.version p ∧ x.refHandles p = [8#64] ∧
      x.refs groupDrawing p = [e] ∧ e.Filed groupDrawing.version ∧ ¬ p.typ.Means l := by
  have hn : groupDrawing.next = 0x100#64 := rfl
  have hd : groupDrawing.demand = 37 := rfl
  refine ⟨{ sampleDrawing_faithful codec with
    objects := by
      intro _ o ho
      obtain rfl := List.mem_singleton.mp ho
      exact ⟨trivial, fun g hg => (by cases hg)⟩ }, by rw [hn, hd]; decide, groupDrawing_sound,
    by rw [hn]; decide, rfl, .object _, .entity _,
    .table .layer (TName.setHandle .layer (TName.named .layer str!"WALLS") 5#64),
    List.mem_cons_self, ⟨by decide, rfl⟩, List.mem_cons_self, ⟨5, .entity none⟩,
    List.mem_cons_of_mem _ List.mem_cons_self, ⟨?_, ?_⟩, rfl, rfl, rfl, fun h => nomatch h⟩
  · change 5 ∉ OName.lost .group _
    decide
  · change Written (OName.statements .group) _ _ 5
    decide +kernel

/-- A pointer to an entity that is added and removed. -/
example : ∃ d d' : Drawing Unit, ∃ x, d.Reachable ∧ (Op.removeEntity 0).run d = .ok d' ∧
    x ∈ (⟨1, .entity none⟩ : Pointer).get d
      (Rec.set (Rec.dflt OName.group.decls) 1 (1#64 : Handle)) ∧
    (Op.removeEntity 0).Removes d x ∧ ¬ (Op.removeEntity 1).Removes d x := by
  obtain ⟨d, d', x, h1, h2, h3, h4, h5⟩ := added_and_removed
  obtain ⟨hst, e⟩ := (C14_lookup h1 _ x).mp h2
  refine ⟨d, d', x, h1, h4, (C54_get (C13 h1) _ _ x).mpr ⟨?_, hst, ?_⟩, h3, h5⟩
  · rw [e]
    exact List.mem_cons_self
  · obtain ⟨y, -, rfl⟩ := h3
    exact .entity _

end Dxf
