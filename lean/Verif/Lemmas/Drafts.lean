import Verif.Spec.Drafts
import Verif.Lemmas.DrawingLookup

/-! Handles of attributes and vertices (C71). -/

namespace Dxf

variable {Img : Type}

open Drawing

/-- The handles of a desk are sound. -/
structure Desk.Fine (k : Desk Img) : Prop where
  once : ∀ h, k.handles.count h ≤ 1
  bounds : ∀ h ∈ k.handles, 0 < h.toNat ∧ h.toNat < k.drawing.next.toNat
  positive : 0 < k.drawing.next.toNat

theorem Desk.count (k : Desk Img) (h : Handle) : k.handles.count h =
    (k.drawing.handlesOf Entity.childHandles).count h + (k.drafts.flatMap Entity.parts).count h := by
  rw [Desk.handles, List.count_append, handlesOf_deep]

/-- Only new handles are added. -/
theorem Desk.Fine.next {k k' : Desk Img} (hk : k.Fine)
    (hn : k.drawing.next.toNat ≤ k'.drawing.next.toNat) {fs : List Handle} (hf : fs.Nodup)
    (hb : ∀ h ∈ fs, k.drawing.next.toNat ≤ h.toNat ∧ h.toNat < k'.drawing.next.toNat)
    (hc : ∀ h, k'.handles.count h ≤ k.handles.count h + fs.count h) : k'.Fine := by
  have hp := hk.positive
  refine ⟨fun h => Nat.le_trans (hc h) ?_, fun h hh => ?_, by omega⟩
  · have e1 := hk.once h
    have e2 := List.nodup_iff_count.mp hf h
    by_cases hm : h ∈ fs
    · have : k.handles.count h = 0 := by
        rw [List.count_eq_zero]
        intro hx
        have := hk.bounds h hx
        have := hb h hm
        omega
      omega
    · rw [List.count_eq_zero.mpr hm]
      omega
  · have e1 := hc h
    have e2 := List.count_pos_iff.mpr hh
    by_cases hm : h ∈ fs
    · have := hb h hm
      omega
    · rw [List.count_eq_zero.mpr hm] at e1
      have := hk.bounds h (List.count_pos_iff.mp (by omega))
      omega

theorem count_set (l : List Entity) (i : Nat) (e e' : Entity) (he : l[i]? = some e) (h : Handle) :
    ((l.set i e').flatMap Entity.parts).count h + e.parts.count h =
      (l.flatMap Entity.parts).count h + e'.parts.count h := by
  induction l generalizing i with
  | nil => simp at he
  | cons a l ih =>
    cases i with
    | zero =>
      simp at he
      subst he
      simp only [List.set_cons_zero, List.flatMap_cons, List.count_append]
      omega
    | succ i =>
      have := ih i (by simpa using he)
      simp only [List.set_cons_succ, List.flatMap_cons, List.count_append]
      omega

theorem count_erase (l : List Entity) (i : Nat) (e : Entity) (he : l[i]? = some e) (h : Handle) :
    ((l.eraseIdx i).flatMap Entity.parts).count h + e.parts.count h =
      (l.flatMap Entity.parts).count h := by
  induction l generalizing i with
  | nil => simp at he
  | cons a l ih =>
    cases i with
    | zero =>
      simp at he
      subst he
      simp only [List.eraseIdx_cons_zero, List.flatMap_cons, List.count_append]
      omega
    | succ i =>
      have := ih i (by simpa using he)
      simp only [List.eraseIdx_cons_succ, List.flatMap_cons, List.count_append]
      omega

theorem parts_mem {k : Desk Img} {i : Nat} {e : Entity} (he : k.drafts[i]? = some e) {h : Handle}
    (hh : h ∈ e.parts) : h ∈ k.handles := by
  refine List.mem_append_right _ (List.mem_flatMap.mpr ⟨e, ?_, hh⟩)
  exact List.mem_of_getElem? he

/-- A handle that was given out is not the mark. -/
theorem not_auto {d : Drawing Img} {h : Handle} (hh : h.toNat < d.next.toNat) :
    h ≠ autoReplaceHandle := by
  rintro rfl
  have h2 := d.next.isLt
  have h3 : BitVec.toNat autoReplaceHandle = 2 ^ 64 - 1 := by decide
  omega

/-- Adding an entity whose attributes and vertices have handles. -/
theorem addEntity_kept {d d' : Drawing Img} {e e' : Entity} (h : d.addEntity e = .ok (e', d'))
    (hp : ∀ x ∈ e.parts, x ≠ autoReplaceHandle) :
    ∃ hd d1 fs d2 d3, d.nextHandle = .ok (hd, d1) ∧ Taken d1 d2 fs ∧
      e'.toFlat = (e.setHandle hd).toFlat ∧ e'.extra.atts = e.extra.atts ∧
      e'.extra.verts = e.extra.verts ∧ e'.extra.mtext = e.extra.mtext ∧
      (∀ x, e'.childHandles.count x = fs.count x + e.parts.count x) ∧ Grows d2 d3 ∧
      d' = { d3 with entities := d3.entities ++ [e'] } := by
  obtain ⟨⟨hd, d1⟩, h1, h⟩ := bind_ok h
  obtain ⟨⟨e2, d2⟩, h2, h⟩ := bind_ok h
  obtain ⟨d3, h3, h⟩ := bind_ok h
  cases h
  obtain ⟨d4, g, hr, rfl⟩ := addEntityNoHandle_ok h3
  unfold childHandles at h2
  have hk0 : (e.setHandle hd).kind = e.kind := rfl
  rw [hk0] at h2
  split at h2
  · rename_i hk
    obtain ⟨⟨s, d5⟩, h5, h2⟩ := bind_ok h2
    obtain ⟨⟨as, d6⟩, h6, h2⟩ := bind_ok h2
    cases h2
    have he : (e.setHandle hd).extra = e.extra := rfl
    rw [he] at h6
    rw [Entity.parts, if_pos hk] at hp
    rw [attHandles_keep _ _ fun a ha => hp _ (List.mem_map_of_mem ha)] at h6
    cases h6
    refine ⟨hd, d1, [s], _, d4, h1, .one h5, rfl, rfl, rfl, rfl, fun x => ?_, g, rfl⟩
    rw [Entity.childHandles, if_pos (show (e.setHandle hd).kind = .insert from hk), Entity.parts,
      if_pos hk]
    simp only [List.count_cons, List.count_nil]
    omega
  · rename_i hk
    split at h2
    · rename_i hk'
      obtain ⟨⟨s, d5⟩, h5, h2⟩ := bind_ok h2
      obtain ⟨⟨as, d6⟩, h6, h2⟩ := bind_ok h2
      cases h2
      have he : (e.setHandle hd).extra = e.extra := rfl
      rw [he] at h6
      rw [Entity.parts, if_neg hk, if_pos hk'] at hp
      rw [vertHandles_keep _ _ fun a ha => hp _ (List.mem_map_of_mem ha)] at h6
      cases h6
      refine ⟨hd, d1, [s], _, d4, h1, .one h5, rfl, rfl, rfl, rfl, fun x => ?_, g, rfl⟩
      rw [Entity.childHandles, if_neg (show ¬ (e.setHandle hd).kind = .insert from hk),
        if_pos (show (e.setHandle hd).kind = .polyline from hk'), Entity.parts, if_neg hk,
        if_pos hk']
      simp only [List.count_cons, List.count_nil]
      omega
    · rename_i hk'
      cases h2
      refine ⟨hd, d1, [], d1, d4, h1, .refl _, rfl, rfl, rfl, rfl, fun x => ?_, g, rfl⟩
      rw [Entity.childHandles, if_neg (show ¬ (e.setHandle hd).kind = .insert from hk),
        if_neg (show ¬ (e.setHandle hd).kind = .polyline from hk'), Entity.parts, if_neg hk,
        if_neg hk']
      rfl

theorem map_ok {α β : Type} {r : Except DxfErr α} {f : α → β} {b : β} (h : r.map f = .ok b) :
    ∃ a, r = .ok a ∧ f a = b := by
  cases r with
  | error => cases h
  | ok a =>
    cases h
    exact ⟨a, rfl, rfl⟩

/-- One more part. -/
theorem fine_revise {k : Desk Img} (hk : k.Fine) {i : Nat} {e e' : Entity}
    (he : k.drafts[i]? = some e) {h : Handle} {d : Drawing Img}
    (hn : k.drawing.nextHandle = .ok (h, d)) (hp : e'.parts = e.parts ++ [h]) :
    (⟨d, k.drafts.set i e'⟩ : Desk Img).Fine := by
  have ht := Taken.one hn
  refine hk.next ht.next ht.nodup ht.bounds fun x => ?_
  rw [Desk.count, Desk.count, ht.handlesOf]
  have := count_set k.drafts i e e' he x
  rw [hp, List.count_append] at this
  change _ + ((k.drafts.set i e').flatMap Entity.parts).count x ≤ _
  omega

theorem fine_step {k k' : Desk Img} {w : Work} (hk : k.Fine) (hw : w.Allowed k)
    (h : w.run k = .ok k') : k'.Fine := by
  cases w with
  | draft e =>
    cases h
    refine hk.next (Nat.le_refl _) (fs := []) List.nodup_nil (by simp) fun x => ?_
    have hz : e.parts = [] := by
      obtain ⟨h1, h2⟩ := hw
      unfold Entity.parts
      rw [h1, h2]
      split
      · rfl
      · split <;> rfl
    rw [Desk.count, Desk.count]
    simp only [List.flatMap_append, List.flatMap_cons, List.flatMap_nil, hz, List.append_nil]
    simp
  | «attribute» i fields mtext =>
    obtain ⟨e, he, hi⟩ := hw
    simp only [Work.run, he] at h
    obtain ⟨⟨e', d⟩, ha, rfl⟩ := map_ok h
    obtain ⟨⟨hd, d1⟩, h1, ha⟩ := bind_ok ha
    cases ha
    refine fine_revise hk he h1 ?_
    unfold Entity.parts
    rw [if_pos hi, if_pos hi]
    simp
  | vertex i fields =>
    obtain ⟨e, he, hi⟩ := hw
    simp only [Work.run, he] at h
    obtain ⟨⟨e', d⟩, ha, rfl⟩ := map_ok h
    obtain ⟨⟨hd, d1⟩, h1, ha⟩ := bind_ok ha
    cases ha
    refine fine_revise hk he h1 ?_
    unfold Entity.parts
    have hn : ¬ e.kind = .insert := by rw [hi]; decide
    rw [if_neg hn, if_neg hn, if_pos hi, if_pos hi]
    simp
  | store i =>
    cases he : k.drafts[i]? with
    | none =>
      simp only [Work.run, he] at h
      cases h
      exact hk
    | some e =>
      simp only [Work.run, he] at h
      obtain ⟨⟨e', d⟩, ha, rfl⟩ := map_ok h
      obtain ⟨hd, d1, fs, d2, d3, hn, ht, hf, -, -, -, hc, g, rfl⟩ := addEntity_kept ha
        fun x hx => not_auto (hk.bounds x (parts_mem he hx)).2
      obtain ⟨gs, g1, g2, g3⟩ := g.fresh
      have t := (Taken.one hn).trans ht
      have n1 := t.next
      have n2 := g.next
      have hh : e'.handle = hd := handle_of_flat hf
      refine hk.next (fs := ([hd] ++ fs) ++ gs) (Nat.le_trans n1 n2) ?_ ?_ fun x => ?_
      · rw [List.nodup_append]
        refine ⟨t.nodup, g1, ?_⟩
        rintro x hx y hy rfl
        have := t.bounds x hx
        have := g2 x hy
        omega
      · intro x hx
        change _ ∧ _ < d3.next.toNat
        rcases List.mem_append.mp hx with hx | hx
        · have := t.bounds x hx
          omega
        · have := g2 x hx
          omega
      · rw [Desk.count, Desk.count]
        change (({ d3 with entities := d3.entities ++ [e'] } : Drawing Img).handlesOf _).count x +
          ((k.drafts.eraseIdx i).flatMap Entity.parts).count x ≤ _
        rw [count_entities, hh, g3, t.handlesOf, hc, List.count_append, List.count_append]
        have := count_erase k.drafts i e he x
        omega
  | discard i =>
    cases h
    refine hk.next (Nat.le_refl _) (fs := []) List.nodup_nil (by simp) fun x => ?_
    rw [Desk.count, Desk.count]
    cases he : k.drafts[i]? with
    | none =>
      have : k.drafts.eraseIdx i = k.drafts :=
        List.eraseIdx_of_length_le (by simpa using he)
      simp only [this]
      simp
    | some e =>
      have := count_erase k.drafts i e he x
      simp only [List.count_nil]
      omega
  | op o =>
    obtain ⟨d, ho, rfl⟩ := map_ok h
    have hs : o = .clear ∨ o.Simple := by
      cases o <;> first | exact .inl rfl | exact .inr hw
    have hcl : o = .clear → k.drafts = [] := by
      rintro rfl
      exact hw
    have hg : o = .clear ∨ Gains Entity.childHandles k.drawing d := by
      refine Op.gains ho (fun e he x => ?_) (fun b hb e he hd => ?_) fun _ => rfl
      · subst he
        rcases hs with hs | hs
        · cases hs
        · exact .inr ⟨hs, rfl⟩
      · subst hb
        rcases hs with hs | hs
        · cases hs
        · obtain ⟨hi, hp⟩ := hs e he
          have hk : (e.setHandle hd).kind = e.kind := rfl
          rw [Entity.childHandles, hk, if_neg hi, if_neg hp]
    rcases hg with rfl | g
    · cases ho
      have hd := hcl rfl
      have hz : (⟨k.drawing.clear, k.drafts⟩ : Desk Img).handles = [] := by
        simp [Desk.handles, hd, deepHandles, handles, Drawing.clear, TName.all]
      refine ⟨fun x => ?_, fun x hx => ?_, (by decide : 0 < (1#64 : Handle).toNat)⟩
      · rw [hz]
        simp
      · change x ∈ Desk.handles ⟨k.drawing.clear, k.drafts⟩ at hx
        rw [hz] at hx
        cases hx
    · obtain ⟨fs, f1, f2, f3⟩ := g.fresh
      refine hk.next g.next f1 f2 fun x => ?_
      rw [Desk.count, Desk.count]
      have := f3 x
      change (d.handlesOf _).count x + (k.drafts.flatMap Entity.parts).count x ≤ _
      omega

theorem fine_reached {k : Desk Img} (h : k.Reached) : k.Fine := by
  induction h with
  | @new h0 order d hf h =>
    obtain ⟨h1, h2, h3⟩ := safe_reachable (c := Entity.childHandles) (P := fun _ => False) (d := d)
      ⟨h0, order, [], hf, by simp, by rw [h]; rfl⟩ (fun _ h => h.elim) (fun _ h => h.elim)
      fun _ => rfl
    refine ⟨fun x => ?_, fun x hx => ?_, h3⟩
    · rw [Desk.count]
      have := List.nodup_iff_count.mp h1 x
      simpa using this
    · refine h2 x ?_
      simpa [Desk.handles, handlesOf_deep] using hx
  | step _ hw h ih => exact fine_step ih hw h

end Dxf
