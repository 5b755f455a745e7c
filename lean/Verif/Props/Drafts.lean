import Verif.Lemmas.Drafts
import Verif.Props.Drawing

/-! Attributes and vertices that are added before the entity is added to the drawing (C71). -/

namespace Dxf

variable {Img : Type}

open Drawing

/-- C71: whatever is done with a new drawing and with entities that are being made for it, no handle
is used twice, none is the null handle, and the next one is greater than all: those of the items, of
the attributes, vertices and end marks of entities in the drawing, and of the attributes and
vertices of entities that are not yet part of it.  Missing: the drawing must not be cleared
meanwhile, and copies of an entity must not be added (C71_cleared, C71_copied). -/
theorem C71_partial {k : Desk Img} (h : k.Reached) :
    k.handles.Nodup ∧ ∀ x ∈ k.handles, 0#64 < x ∧ x < k.drawing.next := by
  have hk := fine_reached h
  exact ⟨List.nodup_iff_count.mpr hk.once, fun x hx => by
    have := hk.bounds x hx
    simp only [BitVec.lt_def]
    simpa using this⟩

/-- C71: so what is in the drawing is sound. -/
theorem C71_sound {k : Desk Img} (h : k.Reached) : k.drawing.DeepSound := by
  obtain ⟨h1, h2⟩ := C71_partial h
  exact ⟨(List.nodup_append.mp h1).1, fun x hx => h2 x (List.mem_append_left _ hx)⟩

/-- C71: the handle of an attribute, of a vertex or of an end mark leads to no item. -/
theorem C71_lookup {k : Desk Img} (h : k.Reached) {e : Entity} {x : Handle}
    (hx : e ∈ k.drafts ∧ x ∈ e.parts ∨ e ∈ k.drawing.entities ∧ x ∈ e.childHandles) :
    k.drawing.itemByHandle x = none := by
  refine itemByHandle_none fun hm => ?_
  have hc := (fine_reached h).once x
  have h1 := List.count_pos_iff.mpr hm
  unfold Desk.handles deepHandles at hc
  simp only [List.count_append] at hc
  rcases hx with ⟨he, hx⟩ | ⟨he, hx⟩
  · have := List.count_pos_iff.mpr (List.mem_flatMap.mpr ⟨e, he, hx⟩)
    omega
  · have := List.count_pos_iff.mpr (List.mem_flatMap.mpr ⟨e, he, hx⟩)
    omega

/-- C71: an entity is stored as it was made, with its attributes or vertices, their handles and
their order; only its own handle is set, and that of its end mark. -/
theorem C71_stored {k k' : Desk Img} (hk : k.Reached) {i : Nat} {e : Entity}
    (he : k.drafts[i]? = some e) (h : (Work.store i).run k = .ok k') :
    ∃ e', k'.drawing.entities = k.drawing.entities ++ [e'] ∧ k'.drafts = k.drafts.eraseIdx i ∧
      e'.toFlat = (e.setHandle k.drawing.next).toFlat ∧ e'.extra.atts = e.extra.atts ∧
      e'.extra.verts = e.extra.verts ∧ e'.extra.mtext = e.extra.mtext := by
  simp only [Work.run, he] at h
  obtain ⟨⟨e', d⟩, ha, rfl⟩ := map_ok h
  obtain ⟨hd, d1, fs, d2, d3, hn, ht, hf, h1, h2, h3, -, g, rfl⟩ := addEntity_kept ha
    fun x hx => not_auto ((fine_reached hk).bounds x (parts_mem he hx)).2
  obtain ⟨rfl, -, -⟩ := nextHandle_ok hn
  refine ⟨e', ?_, rfl, hf, h1, h2, h3⟩
  change d3.entities ++ [e'] = _
  rw [g.entities, ht.grows.entities, (grows_next hn).entities]

/-- C71: an attribute comes after the ones before, which stay as they are, and nothing else of the
entity changes; the drawing only has one handle less to give out. -/
theorem C71_attribute {k k' : Desk Img} {i : Nat} {e : Entity} (he : k.drafts[i]? = some e)
    {fields : Rec (commonDecls ++ Ent.attributeSpec)} {mtext : MTextRec}
    (h : (Work.attribute i fields mtext).run k = .ok k') :
    ∃ e', k'.drafts[i]? = some e' ∧ e'.toFlat = e.toFlat ∧ e'.extra.verts = e.extra.verts ∧
      e'.extra.atts = e.extra.atts ++ [⟨fields, mtext, k.drawing.next⟩] ∧
      (∀ j, j ≠ i → k'.drafts[j]? = k.drafts[j]?) ∧ Taken k.drawing k'.drawing [k.drawing.next] := by
  simp only [Work.run, he] at h
  obtain ⟨⟨e', d⟩, ha, rfl⟩ := map_ok h
  obtain ⟨⟨hd, d1⟩, h1, ha⟩ := bind_ok ha
  cases ha
  have ht := Taken.one h1
  obtain ⟨rfl, -, -⟩ := nextHandle_ok h1
  have hl : i < k.drafts.length := (List.getElem?_eq_some_iff.mp he).1
  exact ⟨_, List.getElem?_set_self hl, rfl, rfl, rfl,
    fun j hj => List.getElem?_set_ne (Ne.symm hj), ht⟩

/-- C71: likewise a vertex. -/
theorem C71_vertex {k k' : Desk Img} {i : Nat} {e : Entity} (he : k.drafts[i]? = some e)
    {fields : Rec (commonDecls ++ Ent.vertexSpec)} (h : (Work.vertex i fields).run k = .ok k') :
    ∃ e', k'.drafts[i]? = some e' ∧ e'.toFlat = e.toFlat ∧ e'.extra.atts = e.extra.atts ∧
      e'.extra.verts = e.extra.verts ++ [⟨fields, k.drawing.next⟩] ∧
      (∀ j, j ≠ i → k'.drafts[j]? = k.drafts[j]?) ∧ Taken k.drawing k'.drawing [k.drawing.next] := by
  simp only [Work.run, he] at h
  obtain ⟨⟨e', d⟩, ha, rfl⟩ := map_ok h
  obtain ⟨⟨hd, d1⟩, h1, ha⟩ := bind_ok ha
  cases ha
  have ht := Taken.one h1
  obtain ⟨rfl, -, -⟩ := nextHandle_ok h1
  have hl : i < k.drafts.length := (List.getElem?_eq_some_iff.mp he).1
  exact ⟨_, List.getElem?_set_self hl, rfl, rfl, rfl,
    fun j hj => List.getElem?_set_ne (Ne.symm hj), ht⟩

/-- C71: nothing panics before the handles run out. -/
theorem C71_step {k : Desk Img} {w : Work} (h : k.drawing.next.toNat + w.cost k < 2 ^ 64) :
    ∃ k', w.run k = .ok k' ∧ k'.drawing.next.toNat ≤ max 1 (k.drawing.next.toNat + w.cost k) := by
  have one : k.drawing.next.toNat + 1 < 2 ^ 64 →
      ∃ hd d, k.drawing.nextHandle = .ok (hd, d) ∧ d.next.toNat = k.drawing.next.toNat + 1 := by
    intro h
    obtain ⟨⟨hd, d⟩, hr, -⟩ := affords_next k.drawing 0 (by unfold Room; omega)
    exact ⟨hd, d, hr, (nextHandle_ok hr).2.2⟩
  cases w with
  | draft e => exact ⟨_, rfl, by simp⟩
  | discard i => exact ⟨_, rfl, by simp⟩
  | op o =>
    obtain ⟨d, hd, hb⟩ := step_ok (op := o) h
    exact ⟨⟨d, k.drafts⟩, by simp [Work.run, hd, Except.map], hb⟩
  | «attribute» i fields mtext =>
    cases he : k.drafts[i]? with
    | none => exact ⟨k, by simp [Work.run, he], by omega⟩
    | some e =>
      obtain ⟨hd, d, hn, hx⟩ := one h
      have hr : (Work.attribute i fields mtext).run k = .ok ⟨d, k.drafts.set i { e with extra := { e.extra with
          atts := e.extra.atts ++ [⟨fields, mtext, hd⟩] } }⟩ := by
        simp only [Work.run, he, Desk.revise, addAttribute, hn]
        rfl
      refine ⟨_, hr, ?_⟩
      change d.next.toNat ≤ max 1 (k.drawing.next.toNat + 1)
      omega
  | vertex i fields =>
    cases he : k.drafts[i]? with
    | none => exact ⟨k, by simp [Work.run, he], by omega⟩
    | some e =>
      obtain ⟨hd, d, hn, hx⟩ := one h
      have hr : (Work.vertex i fields).run k = .ok ⟨d, k.drafts.set i { e with extra := { e.extra with
          verts := e.extra.verts ++ [⟨fields, hd⟩] } }⟩ := by
        simp only [Work.run, he, Desk.revise, addVertex, hn]
        rfl
      refine ⟨_, hr, ?_⟩
      change d.next.toNat ≤ max 1 (k.drawing.next.toNat + 1)
      omega
  | store i =>
    cases he : k.drafts[i]? with
    | none => exact ⟨k, by simp [Work.run, he], by omega⟩
    | some e =>
      have hc : (Work.store i).cost k = Op.cost (.addEntity e) := by simp [Work.cost, he]
      rw [hc] at h ⊢
      obtain ⟨d, hd, hb⟩ := step_ok (op := .addEntity e) h
      obtain ⟨⟨e', d'⟩, ha, rfl⟩ := map_ok hd
      refine ⟨⟨d', k.drafts.eraseIdx i⟩, ?_, hb⟩
      simp only [Work.run, he, ha]
      rfl

/-- Some of the conditions of `Work.Allowed`. -/
private def Work.fits (k : Desk Img) : Work → Bool
  | .draft e | .op (.addEntity e) => e.extra.atts.isEmpty && e.extra.verts.isEmpty
  | .attribute i _ _ => k.drafts[i]?.map (·.kind) == some .insert
  | .vertex i _ => k.drafts[i]?.map (·.kind) == some .polyline
  | .op .clear => k.drafts.isEmpty
  | .store _ | .discard _ => true
  | _ => false

private theorem Work.fits_allowed {k : Desk Img} {w : Work} (h : w.fits k = true) : w.Allowed k := by
  cases w with
  | draft e => simpa [Work.fits, Work.Allowed] using h
  | «attribute» i fields mtext => simpa [Work.fits, Work.Allowed] using h
  | vertex i fields => simpa [Work.fits, Work.Allowed] using h
  | store i => trivial
  | discard i => trivial
  | op o =>
    cases o with
    | addEntity e =>
      simp only [Work.fits, Bool.and_eq_true, List.isEmpty_iff] at h
      exact ⟨by simp [h.1], by simp [h.2]⟩
    | clear => simpa [Work.fits, Work.Allowed] using h
    | _ => simp [Work.fits] at h

private def Work.runAll : List Work → Desk Img → Option (Desk Img)
  | [], k => some k
  | w :: ws, k => if w.fits k then (w.run k).toOption.bind (Work.runAll ws) else none

private theorem Work.runAll_reached (ws : List Work) {k k' : Desk Img} (hk : k.Reached)
    (h : Work.runAll ws k = some k') : k'.Reached := by
  induction ws generalizing k with
  | nil =>
    cases h
    exact hk
  | cons w ws ih =>
    rw [Work.runAll] at h
    split at h
    · rename_i hf
      cases hr : w.run k with
      | error => simp [hr, Except.toOption] at h
      | ok k1 =>
        simp only [hr, Except.toOption, Option.bind_some] at h
        exact ih (.step hk (Work.fits_allowed hf) hr) h
    · cases h

private def plainDesk (ws : List Work) : Option (Desk Unit) :=
  (Drawing.new (Rec.dflt _) []).toOption.bind fun d => Work.runAll ws ⟨d, []⟩

private theorem plainDesk_reached {ws : List Work} {k : Desk Unit} (h : plainDesk ws = some k) :
    k.Reached := by
  unfold plainDesk at h
  cases hn : (Drawing.new (Rec.dflt _) [] : Except DxfErr (Drawing Unit)) with
  | error => simp [hn, Except.toOption] at h
  | ok d =>
    simp only [hn, Except.toOption, Option.bind_some] at h
    exact Work.runAll_reached ws (.new (fun _ _ => rfl) hn) h

/-- Two polylines are made at the same time and one of them is stored, then an insert is begun. -/
private def busy : List Work :=
  [.op .clear, .draft EName.polyline.plain, .draft EName.polyline.plain, .vertex 0 (Rec.dflt _),
    .vertex 1 (Rec.dflt _), .vertex 0 (Rec.dflt _), .op (.addEntity EName.line.plain), .store 1,
    .draft EName.insert.plain, .attribute 1 (Rec.dflt _) (Rec.dflt _)]

example : ∃ k : Desk Unit, k.Reached ∧ k.drafts.map Entity.parts = [[1#64, 3#64], [10#64]] ∧
    k.drawing.entities.map Entity.childHandles = [[], [9#64, 2#64]] := by
  have h : (plainDesk busy).map (fun k => (k.drafts.map Entity.parts,
      k.drawing.entities.map Entity.childHandles)) =
        some ([[1#64, 3#64], [10#64]], [[], [9#64, 2#64]]) := by
    decide +kernel
  obtain ⟨k, hk, he⟩ := Option.map_eq_some_iff.mp h
  exact ⟨k, plainDesk_reached hk, (Prod.ext_iff.mp he).1, (Prod.ext_iff.mp he).2⟩

/-- C71 is violated when the drawing is cleared before the entity is stored: the handles of the
vertices are given out a second time. -/
theorem C71_cleared {d d1 d2 : Drawing Img} {e e1 e2 : Entity} (hk : e.kind = .polyline)
    (hv : e.extra.verts = []) {fields : Rec (commonDecls ++ Ent.vertexSpec)}
    (h1 : d.clear.addVertex e fields = .ok (e1, d1)) (h2 : d1.clear.addEntity e1 = .ok (e2, d2)) :
    ¬ d2.DeepSound := by
  have hp : e1.parts = [1#64] := by
    obtain ⟨⟨hd, d3⟩, hn, h1⟩ := bind_ok h1
    cases h1
    obtain ⟨rfl, -, -⟩ := nextHandle_ok hn
    rw [Entity.parts, if_neg (show ¬ e.kind = .insert by rw [hk]; decide),
      if_pos (show e.kind = .polyline from hk), hv]
    rfl
  obtain ⟨hd', d4, fs, d5, d6, hn', ht, hf, -, -, -, hc, g, rfl⟩ := addEntity_kept h2
    fun x hx => by
      rw [hp] at hx
      rw [List.mem_singleton.mp hx]
      decide
  obtain ⟨rfl, -, -⟩ := nextHandle_ok hn'
  have hh : e2.handle = 1#64 := handle_of_flat hf
  intro hs
  have h3 := List.nodup_iff_count.mp hs.1 1#64
  rw [← handlesOf_deep, count_entities, hh, hc, hp] at h3
  simp only [List.count_cons_self] at h3
  omega

example : ∃ (d d1 d2 : Drawing Unit) (e e1 e2 : Entity), e.kind = .polyline ∧ e.extra.verts = [] ∧
    d.clear.addVertex e (Rec.dflt _) = .ok (e1, d1) ∧ d1.clear.addEntity e1 = .ok (e2, d2) := by
  obtain ⟨d, -⟩ := C13_total (Img := Unit) (h0 := Rec.dflt _) (fun _ _ => rfl) [] []
    (by decide +kernel)
  have hc : ∀ d : Drawing Unit, d.clear.next.toNat = 1 := fun _ => by
    change (1#64 : Handle).toNat = 1
    decide
  obtain ⟨⟨hd, d1⟩, h1, -⟩ := affords_next d.clear 0 (by unfold Room; rw [hc]; decide)
  have h1' : d.clear.addVertex EName.polyline.plain (Rec.dflt _) =
      .ok ({ EName.polyline.plain with extra := { Extra.dflt with verts := [⟨Rec.dflt _, hd⟩] } }, d1) := by
    rw [addVertex, h1]
    rfl
  obtain ⟨⟨e2, d2⟩, h2, -⟩ := affords_entity d1.clear
    ({ EName.polyline.plain with extra := { Extra.dflt with verts := [⟨Rec.dflt _, hd⟩] } }) 0
    (by unfold Room; rw [hc]; simp [Extra.dflt])
  exact ⟨d, d1, d2, _, _, e2, rfl, rfl, h1', h2⟩

/-- C71 is violated when a polyline with vertices is copied and both are stored: the vertices of the
copy have the handles of the others. -/
theorem C71_copied {k k1 k2 : Desk Img} (hk : k.Reached) {i : Nat} {e : Entity}
    (he : k.drafts[i]? = some e) (hp : e.parts ≠ [])
    (h1 : ((Work.draft e).run k >>= (Work.store i).run) = .ok k1)
    (h2 : (Work.store (k.drafts.length - 1)).run k1 = .ok k2) : ¬ k2.drawing.DeepSound := by
  have hl : i < k.drafts.length := (List.getElem?_eq_some_iff.mp he).1
  have hx := fun x hx => not_auto ((fine_reached hk).bounds x (parts_mem he hx)).2
  change (Work.store i).run ⟨k.drawing, k.drafts ++ [e]⟩ = .ok k1 at h1
  have he1 : (k.drafts ++ [e])[i]? = some e := by rw [List.getElem?_append_left hl, he]
  simp only [Work.run, he1] at h1
  obtain ⟨⟨e1, d1⟩, ha, rfl⟩ := map_ok h1
  have he2 : ((k.drafts ++ [e]).eraseIdx i)[k.drafts.length - 1]? = some e := by
    rw [List.getElem?_eraseIdx_of_ge (by omega),
      show k.drafts.length - 1 + 1 = k.drafts.length by omega]
    simp
  simp only [Work.run, he2] at h2
  obtain ⟨⟨e2, d2⟩, hb, rfl⟩ := map_ok h2
  obtain ⟨es, hes⟩ := addEntity_twice ha hb
  obtain ⟨_, _, fs, _, _, _, _, _, _, _, _, hc, _, _⟩ := addEntity_kept ha hx
  obtain ⟨_, _, fs', _, _, _, _, _, _, _, _, hc', _, _⟩ := addEntity_kept hb hx
  obtain ⟨x, xs, hxs⟩ := List.exists_cons_of_ne_nil hp
  have hm : 0 < e.parts.count x := List.count_pos_iff.mpr (by rw [hxs]; simp)
  refine shared_child hes (x := x) (List.count_pos_iff.mp ?_) (List.count_pos_iff.mp ?_)
  · rw [hc]
    omega
  · rw [hc']
    omega

example : ∃ k k1 k2 : Desk Unit, k.Reached ∧ ∃ e, k.drafts[0]? = some e ∧ e.parts ≠ [] ∧
    ((Work.draft e).run k >>= (Work.store 0).run) = .ok k1 ∧
    (Work.store (k.drafts.length - 1)).run k1 = .ok k2 := by
  have h : ((plainDesk busy).bind fun k => k.drafts[0]?.bind fun e =>
      (((Work.draft e).run k >>= (Work.store 0).run) >>=
        (Work.store (k.drafts.length - 1)).run).toOption.map fun _ => e.parts.length) = some 2 := by
    decide +kernel
  obtain ⟨k, hk, h⟩ := Option.bind_eq_some_iff.mp h
  obtain ⟨e, he, h⟩ := Option.bind_eq_some_iff.mp h
  obtain ⟨k2, h2, hl⟩ := Option.map_eq_some_iff.mp h
  have h2' : (((Work.draft e).run k >>= (Work.store 0).run) >>=
      (Work.store (k.drafts.length - 1)).run) = .ok k2 := by
    revert h2
    generalize (((Work.draft e).run k >>= (Work.store 0).run) >>=
      (Work.store (k.drafts.length - 1)).run) = r
    intro h2
    cases r with
    | error => cases h2
    | ok a =>
      cases h2
      rfl
  obtain ⟨k1, h3, h4⟩ := bind_ok h2'
  refine ⟨k, k1, k2, plainDesk_reached hk, e, he, ?_, h3, h4⟩
  intro h0
  rw [h0] at hl
  cases hl

end Dxf
