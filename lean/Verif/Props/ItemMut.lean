import Verif.Lemmas.ItemMut
import Verif.Props.Change

/-! Changing an item through its handle (C73). -/

namespace Dxf

variable {Img : Type}

open Drawing

/-- C73: a handle that is found for writing stands for a place in the drawing.  The item that is
there is the one that has the handle. -/
theorem C73_found {d : Drawing Img} {k : Handle} {s : Slot} (h : d.itemByHandleMut k = some s) :
    ∃ x, d.read s = some x ∧ s.handle x = k ∧ d.itemByHandle k = some (s.item x) := mut_read h

/-- C73: what is found for reading is found for writing. -/
theorem C73_both (d : Drawing Img) (k : Handle) :
    (d.itemByHandleMut k).isSome = (d.itemByHandle k).isSome := by
  rw [← mut_eq]
  cases h : d.itemByHandleMut k with
  | none => rfl
  | some s => exact (mut_valid d k s h).symm

/-- C73: after a change of the item at a place, the changed item is at this place, and everything
else is as before. -/
theorem C73_written (d : Drawing Img) (s : Slot) (f : s.Item → s.Item) :
    (d.write s f).read s = (d.read s).map f ∧
    (∀ s', s' ≠ s → (d.write s f).at s' = d.at s') ∧ (d.write s f).header = d.header ∧
    (d.write s f).classes = d.classes ∧ (d.write s f).thumbnail = d.thumbnail := by
  refine ⟨read_write d s f, fun s' h => ?_, ?_, ?_, ?_⟩
  · rw [at_read, at_read, read_ne d h]
  all_goals cases s <;> rfl

/-- C73: after a change that keeps the handle, the changed item is found under the handle, and the
same items as before are found under all others. -/
theorem C73_lookup {d : Drawing Img} {k : Handle} {s : Slot} (h : d.itemByHandleMut k = some s)
    {f : s.Item → s.Item} (hf : ∀ x, s.handle (f x) = s.handle x) :
    (∃ x, d.itemByHandle k = some (s.item x) ∧
      (d.write s f).itemByHandle k = some (s.item (f x))) ∧
    ∀ k', k' ≠ k → (d.write s f).itemByHandle k' = d.itemByHandle k' := by
  obtain ⟨x, hx, hk, hi⟩ := mut_read h
  refine ⟨⟨x, hi, ?_⟩, fun k' hk' => ?_⟩
  · rw [← mut_eq, mut_write hx (hf x), h, Option.bind_some, at_read, read_write, hx]
    rfl
  · rw [← mut_eq, ← mut_eq, mut_write hx (hf x)]
    cases hm : d.itemByHandleMut k' with
    | none => rfl
    | some s' =>
      obtain ⟨y, hy, hky, -⟩ := mut_read hm
      rw [Option.bind_some, Option.bind_some, at_read, at_read, read_ne]
      rintro rfl
      rw [hx] at hy
      cases hy
      exact hk' (hky.symm.trans hk)

/-- C73: an item can be given another handle.  If no other item has it and it was given out before,
the handles stay unique, the item is found under its new handle, no longer under the old one, and the
same items as before are found under all others. -/
theorem C73_renamed {d : Drawing Img} (hd : d.Sound) {k k' : Handle} {s : Slot}
    (h : d.itemByHandleMut k = some s) (hk : k' ∉ d.handles) (h0 : 0#64 < k') (hn : k' < d.next) :
    (d.write s (s.setHandle k')).Sound ∧
    (∃ x, d.itemByHandle k = some (s.item x) ∧
      (d.write s (s.setHandle k')).itemByHandle k' = some (s.item (s.setHandle k' x))) ∧
    (d.write s (s.setHandle k')).itemByHandle k = none ∧
    ∀ j, j ≠ k → j ≠ k' → (d.write s (s.setHandle k')).itemByHandle j = d.itemByHandle j := by
  obtain ⟨x, hx, hxk, hi⟩ := mut_read h
  obtain ⟨a, b, h1, h2⟩ := handles_write hx
  have h2 := h2 (s.setHandle k') (by cases s <;> rfl)
  rw [Slot.handle_setHandle] at h2
  rw [hxk] at h1
  have hne : k ≠ k' := fun e => hk (by rw [h1, e]; simp)
  have hnd := hd.1
  rw [h1] at hnd hk
  have hnd' : (a ++ k' :: b).Nodup := by
    rw [List.nodup_append, List.nodup_cons] at hnd ⊢
    simp only [List.mem_append, List.mem_cons, not_or] at hk
    refine ⟨hnd.1, ⟨hk.2.2, hnd.2.1.2⟩, fun y hy z hz => ?_⟩
    rcases List.mem_cons.mp hz with rfl | hz
    · exact fun e => hk.1 (e ▸ hy)
    · exact hnd.2.2 y hy z (List.mem_cons_of_mem _ hz)
  have hs : (d.write s (s.setHandle k')).Sound := by
    refine ⟨by rw [h2]; exact hnd', fun j hj => ?_⟩
    rw [write_next]
    rw [h2] at hj
    simp only [List.mem_append, List.mem_cons] at hj
    rcases hj with hj | rfl | hj
    · exact hd.2 j (by rw [h1]; simp [hj])
    · exact ⟨h0, hn⟩
    · exact hd.2 j (by rw [h1]; simp [hj])
  refine ⟨hs, ⟨x, hi, ?_⟩, ?_, fun j hj hj' => ?_⟩
  · refine (itemByHandle_iff hs _ _).mpr ⟨stores_read.mpr ⟨s, _, ?_, rfl⟩, ?_⟩
    · rw [read_write, hx]
      rfl
    · rw [Slot.handle_item, Slot.handle_setHandle]
  · refine itemByHandle_none ?_
    rw [h2]
    rw [List.nodup_append, List.nodup_cons] at hnd
    simp only [List.mem_append, List.mem_cons, not_or]
    exact ⟨fun hm => hnd.2.2 k hm k List.mem_cons_self rfl, hne, hnd.2.1.1⟩
  · refine Option.ext fun z => ?_
    rw [itemByHandle_iff hs, itemByHandle_iff hd, stores_read, stores_read]
    constructor
    · rintro ⟨⟨s', y, hy, rfl⟩, hz⟩
      refine ⟨⟨s', y, ?_, rfl⟩, hz⟩
      rw [read_ne] at hy
      · exact hy
      · rintro rfl
        rw [read_write, hx] at hy
        cases hy
        rw [Slot.handle_item, Slot.handle_setHandle] at hz
        exact hj' hz.symm
    · rintro ⟨⟨s', y, hy, rfl⟩, hz⟩
      refine ⟨⟨s', y, ?_, rfl⟩, hz⟩
      rw [read_ne]
      · exact hy
      · rintro rfl
        rw [hx] at hy
        cases hy
        rw [Slot.handle_item, hxk] at hz
        exact hj hz.symm

/-- C73: when the item at a place is changed, the file changes only in the part of this item, which
is determined by the item, the version, and whether handles are written.  (C72_text and C72_binary
give the same for the bytes.) -/
theorem C73_file (s : Slot) (v : Version) (wh : Bool) :
    ∃ part : s.Item → Except DxfErr (List CodePair), ∀ (codec : ImageCodec Img) (d : Drawing Img),
      d.version = v → d.writeHandles = wh → (d.read s).isSome →
        Localized (fun _ => True) (codePairs codec) (fun y => d.write s fun _ => y) part := by
  cases s with
  | table t i =>
    change ∃ part : t.Item → Except DxfErr (List CodePair), ∀ (codec : ImageCodec Img)
      (d : Drawing Img), d.version = v → d.writeHandles = wh → ((d.tables t)[i]?).isSome →
        Localized (fun _ : t.Item => True) (codePairs codec)
          (fun y => d.setTable t ((d.tables t).modify i fun _ => y)) part
    obtain ⟨f, hf⟩ := C72_table (Img := Img) t v wh
    refine ⟨fun x => .ok ([x].flatMap f), fun codec d hv hw hr => ?_⟩
    obtain ⟨x, hx⟩ := Option.isSome_iff_exists.mp hr
    simp only [modify_mid hx]
    exact (hf codec d ((d.tables t).take i) ((d.tables t).drop (i + 1)) hv hw).one fun _ => by simp
  | block i =>
    change ∃ part : Block → Except DxfErr (List CodePair), ∀ (codec : ImageCodec Img)
      (d : Drawing Img), d.version = v → d.writeHandles = wh → (d.blocks[i]?).isSome →
        Localized (fun _ : Block => True) (codePairs codec)
          (fun y => { d with blocks := d.blocks.modify i fun _ => y }) part
    obtain ⟨f, hf⟩ := C72_blocks (Img := Img) v wh
    refine ⟨fun x => .ok ([x].flatMap f), fun codec d hv hw hr => ?_⟩
    obtain ⟨x, hx⟩ := Option.isSome_iff_exists.mp hr
    simp only [modify_mid hx]
    exact (hf codec d (d.blocks.take i) (d.blocks.drop (i + 1)) hv hw).one fun _ => by simp
  | entity i =>
    change ∃ part : Entity → Except DxfErr (List CodePair), ∀ (codec : ImageCodec Img)
      (d : Drawing Img), d.version = v → d.writeHandles = wh → (d.entities[i]?).isSome →
        Localized (fun _ : Entity => True) (codePairs codec)
          (fun y => { d with entities := d.entities.modify i fun _ => y }) part
    obtain ⟨f, hf⟩ := C72_entities (Img := Img) v wh
    refine ⟨fun x => .ok ([x].flatMap f), fun codec d hv hw hr => ?_⟩
    obtain ⟨x, hx⟩ := Option.isSome_iff_exists.mp hr
    simp only [modify_mid hx]
    exact (hf codec d (d.entities.take i) (d.entities.drop (i + 1)) hv hw).one fun _ => trivial
  | object i =>
    change ∃ part : Object → Except DxfErr (List CodePair), ∀ (codec : ImageCodec Img)
      (d : Drawing Img), d.version = v → d.writeHandles = wh → (d.objects[i]?).isSome →
        Localized (fun _ : Object => True) (codePairs codec)
          (fun y => { d with objects := d.objects.modify i fun _ => y }) part
    obtain ⟨f, hf⟩ := C72_objects (Img := Img) v
    refine ⟨fun x => ([x].mapM f).map List.flatten, fun codec d hv hw hr => ?_⟩
    obtain ⟨x, hx⟩ := Option.isSome_iff_exists.mp hr
    simp only [modify_mid hx]
    exact (hf codec d (d.objects.take i) (d.objects.drop (i + 1)) hv).one fun _ => trivial

/-- C73 without the condition: with the handle of another item, or with one that was not given out
yet, the handles are not unique any more, now or after the next addition. -/
theorem C73_needed {d : Drawing Img} {k k' : Handle} {s : Slot} (h : d.itemByHandleMut k = some s)
    (hk : k' ≠ k) :
    ((∃ z, d.itemByHandle k' = some z) → ¬ (d.write s (s.setHandle k')).handles.Nodup) ∧
    (k' = d.next → ∀ {t : TName} {x y : t.Item} {d' : Drawing Img},
      (d.write s (s.setHandle k')).add t x = .ok (y, d') → ¬ d'.handles.Nodup) := by
  obtain ⟨x0, hx, hxk, hi⟩ := mut_read h
  obtain ⟨a, b, h1, h2⟩ := handles_write hx
  have h2 := h2 (s.setHandle k') (by cases s <;> rfl)
  rw [Slot.handle_setHandle] at h2
  rw [hxk] at h1
  refine ⟨?_, ?_⟩
  · rintro ⟨z, hz⟩ hnd
    have hm : k' ∈ d.handles := by
      by_contra hn
      rw [itemByHandle_none hn] at hz
      cases hz
    rw [h1] at hm
    rw [h2, List.nodup_append, List.nodup_cons] at hnd
    simp only [List.mem_append, List.mem_cons] at hm
    rcases hm with hm | rfl | hm
    · exact hnd.2.2 k' hm k' List.mem_cons_self rfl
    · exact hk rfl
    · exact hnd.2.1.1 hm
  · intro e t x y d' ha hnd
    obtain ⟨hd, d1, d2, hn, rfl, g, -, rfl⟩ := add_ok ha
    have hst : d2.Stores (s.item (s.setHandle k' x0)) := g.stores ((grows_next hn).stores
      (stores_read.mpr ⟨s, _, by rw [read_write, hx]; rfl, rfl⟩))
    have hm := stores_handle hst
    rw [Slot.handle_item, Slot.handle_setHandle] at hm
    obtain ⟨rfl, -, -⟩ := nextHandle_ok hn
    rw [write_next, ← e] at *
    have := count_push (c := fun _ => []) d2 t (t.setHandle x k') k'
    rw [handlesOf_none, handlesOf_none, TName.handle_setHandle] at this
    have h3 := List.nodup_iff_count_le_one.mp hnd k'
    have h4 := List.count_pos_iff.mpr hm
    simp at this
    omega

private def swappable (d : Drawing Unit) : Bool :=
  (d.itemByHandleMut 3#64).isSome && decide (1#64 ∉ d.handles) && decide (1#64 < d.next) &&
    (d.itemByHandle 2#64).isSome

/-- A drawing in which the layer with handle 3 can be given the handle of a layer that was removed,
but not that of the line type 2. -/
example : ∃ d : Drawing Unit, d.Reachable ∧ d.Sound ∧ (∃ s, d.itemByHandleMut 3#64 = some s) ∧
    1#64 ∉ d.handles ∧ 0#64 < 1#64 ∧ 1#64 < d.next ∧ ∃ z, d.itemByHandle 2#64 = some z := by
  obtain ⟨d, h⟩ := C13_total (Img := Unit) (h0 := Rec.dflt _) (fun _ _ => rfl) []
    [.clear, .add .layer (TName.named .layer str!"A"), .add .layer (TName.named .layer str!"B"),
      .remove .layer 0] (by decide +kernel)
  have hc : ((Drawing.new (Rec.dflt _) [] >>= Op.runAll [.clear,
      .add .layer (TName.named .layer str!"A"), .add .layer (TName.named .layer str!"B"),
      .remove .layer 0] : Except DxfErr (Drawing Unit)).toOption.map swappable) = some true := by
    decide +kernel
  rw [h] at hc
  have hc : swappable d = true := Option.some.inj hc
  simp only [swappable, Bool.and_eq_true, decide_eq_true_eq, Option.isSome_iff_exists] at hc
  obtain ⟨⟨⟨c1, c2⟩, c3⟩, c4⟩ := hc
  have hr : d.Reachable := ⟨_, _, _, fun _ _ => rfl, fun _ _ => trivial, h⟩
  exact ⟨d, hr, C13 hr, c1, c2, by decide, c3, c4⟩

end Dxf
