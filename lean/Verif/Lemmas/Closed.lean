import Verif.Spec.Closed
import Verif.Model.File
import Verif.Model.Dxb
import Verif.Lemmas.DrawingOps
import Verif.Lemmas.DrawingLookup
import Verif.Lemmas.Sections

/-! Lemmas for C59: whatever is added comes with what it refers to. -/

namespace Dxf

variable {Img : Type}

namespace Drawing

/-- Nothing that can be referred to is lost, and what is new refers to what is there. -/
structure Brings (d d' : Drawing Img) : Prop where
  has : ∀ t s, d.has t s = true → d'.has t s = true
  styles : ∀ o ∈ d.objects, o ∈ d'.objects
  layers : ∀ x ∈ d'.tables .layer, x ∈ d.tables .layer ∨ d'.LayerRefs x
  blocks : ∀ b ∈ d'.blocks, b ∈ d.blocks ∨ d'.BlockRefs b
  entities : ∀ e ∈ d'.entities, e ∈ d.entities ∨ d'.EntityRefs e
  objects : ∀ o ∈ d'.objects, o ∈ d.objects ∨ d'.ObjectRefs o

/-- What can be referred to is not lost. -/
structure Retains (d d' : Drawing Img) : Prop where
  has : ∀ t s, d.has t s = true → d'.has t s = true
  styles : ∀ s, (∃ o ∈ d.objects, o.styleName = some s) → ∃ o ∈ d'.objects, o.styleName = some s

namespace Retains

variable {d d' : Drawing Img} (g : Retains d d')
include g

theorem layer {x : TName.Item .layer} (h : d.LayerRefs x) : d'.LayerRefs x := g.has _ _ h

theorem block {b : Block} (h : d.BlockRefs b) : d'.BlockRefs b :=
  ⟨g.has _ _ h.1, g.has _ _ h.2.1, fun e he => ⟨g.has _ _ (h.2.2 e he).1, g.has _ _ (h.2.2 e he).2⟩⟩

theorem entity {e : Entity} (h : d.EntityRefs e) : d'.EntityRefs e :=
  ⟨g.has _ _ h.1, g.has _ _ h.2.1, fun s hs => g.styles s (h.2.2.1 s hs),
    fun s hs => g.has _ _ (h.2.2.2.1 s hs), fun s hs => g.has _ _ (h.2.2.2.2 s hs)⟩

theorem object {o : Object} (h : d.ObjectRefs o) : d'.ObjectRefs o :=
  ⟨fun s hs => g.has _ _ (h.1 s hs), fun s hs => ⟨g.has _ _ (h.2.1 s hs).1, g.has _ _ (h.2.1 s hs).2⟩,
    fun s hs => g.has _ _ (h.2.2 s hs)⟩

end Retains

namespace Brings

theorem retains {d d' : Drawing Img} (g : Brings d d') : Retains d d' :=
  ⟨g.has, fun _ ⟨o, ho, hs⟩ => ⟨o, g.styles o ho, hs⟩⟩

theorem refl (d : Drawing Img) : Brings d d :=
  ⟨fun _ _ h => h, fun _ h => h, fun _ h => .inl h, fun _ h => .inl h, fun _ h => .inl h,
    fun _ h => .inl h⟩

theorem trans {d d' d'' : Drawing Img} (g : Brings d d') (k : Brings d' d'') : Brings d d'' where
  has t s h := k.has t s (g.has t s h)
  styles o h := k.styles o (g.styles o h)
  layers x hx := (k.layers x hx).elim (fun h => (g.layers x h).imp id k.retains.layer) .inr
  blocks x hx := (k.blocks x hx).elim (fun h => (g.blocks x h).imp id k.retains.block) .inr
  entities x hx := (k.entities x hx).elim (fun h => (g.entities x h).imp id k.retains.entity) .inr
  objects x hx := (k.objects x hx).elim (fun h => (g.objects x h).imp id k.retains.object) .inr

theorem closed {d d' : Drawing Img} (g : Brings d d') (h : Closed d) : Closed d' where
  layers x hx := (g.layers x hx).elim (fun k => g.retains.layer (h.layers x k)) id
  blocks x hx := (g.blocks x hx).elim (fun k => g.retains.block (h.blocks x k)) id
  entities x hx := (g.entities x hx).elim (fun k => g.retains.entity (h.entities x k)) id
  objects x hx := (g.objects x hx).elim (fun k => g.retains.object (h.objects x k)) id

theorem next {d d' : Drawing Img} {h : Handle} (hh : d.nextHandle = .ok (h, d')) : Brings d d' := by
  obtain ⟨-, rfl, -⟩ := nextHandle_ok hh
  exact ⟨fun _ _ h => h, fun _ h => h, fun _ h => .inl h, fun _ h => .inl h, fun _ h => .inl h,
    fun _ h => .inl h⟩

theorem has_push' (d : Drawing Img) (t : TName) (x : t.Item) {t' : TName} {s : Str}
    (h : d.has t' s = true) : (d.push t x).has t' s = true := by
  rw [has_iff] at h ⊢
  obtain ⟨y, hy, hs⟩ := h
  refine ⟨y, ?_, hs⟩
  by_cases ht : t = t'
  · subst ht
    rw [push, tables_set]
    exact List.mem_append_left _ hy
  · rwa [push, tables_set_ne _ _ ht]

theorem push (d : Drawing Img) {t : TName} (ht : t ≠ .layer) (x : t.Item) :
    Brings d (d.push t x) where
  has _ _ h := has_push' d t x h
  styles _ h := h
  layers y hy := .inl (by rwa [Drawing.push, tables_set_ne _ _ ht] at hy)
  blocks _ h := .inl h
  entities _ h := .inl h
  objects _ h := .inl h

theorem pushLayer (d : Drawing Img) (x : TName.Item .layer) (hx : d.LayerRefs x) :
    Brings d (d.push .layer x) where
  has _ _ h := has_push' d _ x h
  styles _ h := h
  layers y hy := by
    rw [Drawing.push, tables_set, List.mem_append, List.mem_singleton] at hy
    rcases hy with hy | rfl
    · exact .inl hy
    · exact .inr (has_push' d _ _ hx)
  blocks _ h := .inl h
  entities _ h := .inl h
  objects _ h := .inl h

theorem ensurePlain {d d' : Drawing Img} {t : TName} (ht : t ≠ .layer) {s : Str}
    (h : d.ensurePlain t s = .ok d') : Brings d d' := by
  rw [Drawing.ensurePlain] at h
  split at h
  · cases h
    exact refl d
  · obtain ⟨⟨x, d1⟩, h1, h⟩ := bind_ok h
    cases h
    exact (next h1).trans (push d1 ht _)

theorem addNoHandle {d d' : Drawing Img} {t : TName} {x : t.Item} (h : d.addNoHandle t x = .ok d') :
    Brings d d' := by
  cases t
  case layer =>
    obtain ⟨d1, h1, h⟩ := bind_ok h
    cases h
    exact (ensurePlain (by decide) h1).trans (pushLayer d1 x (ensurePlain_ok h1).2.1)
  all_goals
    cases h
    exact push d (by decide) x

theorem add {d d' : Drawing Img} {t : TName} {x y : t.Item} (h : d.add t x = .ok (y, d')) :
    Brings d d' := by
  obtain ⟨⟨n, d1⟩, h1, h⟩ := bind_ok h
  obtain ⟨d2, h2, h⟩ := bind_ok h
  cases h
  exact (next h1).trans (addNoHandle h2)

theorem ensure {d d' : Drawing Img} {t : TName} {s : Str} (h : d.ensure t s = .ok d') :
    Brings d d' := by
  rw [Drawing.ensure] at h
  split at h
  · cases h
    exact refl d
  · obtain ⟨⟨x, d1⟩, h1, h⟩ := bind_ok h
    cases h
    exact add h1

theorem foldlM {α : Type} {f : Drawing Img → α → Except DxfErr (Drawing Img)}
    (hf : ∀ {d : Drawing Img} {a : α} {d' : Drawing Img}, f d a = .ok d' → Brings d d')
    {l : List α} {d d' : Drawing Img}
    (h : l.foldlM f d = .ok d') : Brings d d' := by
  induction l generalizing d with
  | nil =>
    cases h
    exact refl _
  | cons a l ih =>
    rw [List.foldlM_cons] at h
    obtain ⟨d1, h1, h⟩ := bind_ok h
    exact (hf h1).trans (ih h)

theorem ensureAll {d d' : Drawing Img} {t : TName} {ss : List Str} (h : d.ensureAll t ss = .ok d') :
    Brings d d' :=
  foldlM (f := fun d s => d.ensure t s) ensure h

theorem addObjectNoHandle {d d' : Drawing Img} {o : Object} (h : d.addObjectNoHandle o = .ok d') :
    Brings d d' := by
  obtain ⟨d1, h1, h⟩ := bind_ok h
  obtain ⟨d2, h2, h⟩ := bind_ok h
  obtain ⟨d3, h3, h⟩ := bind_ok h
  obtain ⟨d4, h4, h⟩ := bind_ok h
  cases h
  have g2 := ensureAll h2
  have g3 := ensureAll h3
  have g4 := ensureAll h4
  have hr : d4.ObjectRefs o := ⟨fun s hs => g4.has _ _ (g3.has _ _ (g2.has _ _
      ((ensureAll_ok h1).2 s hs))),
    fun s hs => ⟨g4.has _ _ (g3.has _ _ ((ensureAll_ok h2).2 s (Option.mem_toList.mpr hs))),
      g4.has _ _ ((ensureAll_ok h3).2 s (Option.mem_toList.mpr hs))⟩,
    fun s hs => (ensureAll_ok h4).2 s (Option.mem_toList.mpr hs)⟩
  refine ((ensureAll h1).trans (g2.trans (g3.trans g4))).trans
    ⟨fun _ _ h => h, fun _ h => List.mem_append_left _ h, fun _ h => .inl h, fun _ h => .inl h,
      fun _ h => .inl h, fun x hx => ?_⟩
  rcases List.mem_append.mp hx with hx | hx
  · exact .inl hx
  · cases List.mem_singleton.mp hx
    exact .inr hr

theorem addObject {d d' : Drawing Img} {o o' : Object} (h : d.addObject o = .ok (o', d')) :
    Brings d d' := by
  obtain ⟨⟨n, d1⟩, h1, h⟩ := bind_ok h
  obtain ⟨d2, h2, h⟩ := bind_ok h
  cases h
  exact (next h1).trans (addObjectNoHandle h2)

theorem mline {d d' : Drawing Img} {s : Option Str} (h : d.ensureMLineStyle s = .ok d') :
    Brings d d' := by
  cases s with
  | none =>
    cases h
    exact refl d
  | some s =>
    rw [ensureMLineStyle] at h
    split at h
    · cases h
      exact refl d
    · obtain ⟨⟨x, d1⟩, h1, h⟩ := bind_ok h
      cases h
      exact addObject h1

theorem addEntityNoHandle {d d' : Drawing Img} {e : Entity} (h : d.addEntityNoHandle e = .ok d') :
    Brings d d' := by
  have hr : d'.EntityRefs e := by
    obtain ⟨d1, -, hr, rfl⟩ := addEntityNoHandle_ok h
    exact hr
  obtain ⟨d1, h1, h⟩ := bind_ok h
  obtain ⟨d2, h2, h⟩ := bind_ok h
  obtain ⟨d3, h3, h⟩ := bind_ok h
  obtain ⟨d4, h4, h⟩ := bind_ok h
  obtain ⟨d5, h5, h⟩ := bind_ok h
  cases h
  refine ((mline h1).trans ((ensureAll h2).trans ((ensure h3).trans ((ensure h4).trans
    (ensureAll h5))))).trans
    ⟨fun _ _ h => h, fun _ h => h, fun _ h => .inl h, fun _ h => .inl h, fun x hx => ?_,
      fun _ h => .inl h⟩
  rcases List.mem_append.mp hx with hx | hx
  · exact .inl hx
  · cases List.mem_singleton.mp hx
    exact .inr hr

theorem taken {d d' : Drawing Img} {fs : List Handle} (h : Taken d d' fs) : Brings d d' := by
  rw [h.same]
  exact ⟨fun _ _ h => h, fun _ h => h, fun _ h => .inl h, fun _ h => .inl h, fun _ h => .inl h,
    fun _ h => .inl h⟩

theorem addEntity {d d' : Drawing Img} {e e' : Entity} (h : d.addEntity e = .ok (e', d')) :
    Brings d d' := by
  obtain ⟨⟨n, d1⟩, h1, h⟩ := bind_ok h
  obtain ⟨⟨e2, d2⟩, h2, h⟩ := bind_ok h
  obtain ⟨d3, h3, h⟩ := bind_ok h
  cases h
  obtain ⟨fs, ht, -⟩ := childHandles_ok h2
  exact (next h1).trans ((taken ht).trans (addEntityNoHandle h3))

theorem addBlockNoHandle {d d' : Drawing Img} {b b' : Block}
    (h : d.addBlockNoHandle b = .ok (b', d')) : Brings d d' := by
  obtain ⟨d1, h1, h⟩ := bind_ok h
  obtain ⟨d2, h2, h⟩ := bind_ok h
  obtain ⟨⟨y, d3⟩, h3, h⟩ := bind_ok h
  obtain ⟨⟨es, d4⟩, h4, h⟩ := bind_ok h
  cases h
  have g2 := ensureAll h2
  have g3 := add h3
  obtain ⟨ht, hf⟩ := entityHandles_ok h4
  have g4 := taken ht
  have hr : d4.BlockRefs { b with entities := es } := by
    refine ⟨g4.has _ _ (g3.has _ _ (g2.has _ _ ((ensureAll_ok h1).2 _ List.mem_cons_self))),
      g4.has _ _ ?_, fun e he => ?_⟩
    · obtain ⟨hst, hy, -⟩ := stores_add h3
      rw [has_iff]
      refine ⟨y, hst, ?_⟩
      rw [hy, TName.name_setHandle, TName.name_named]
      rfl
    · obtain ⟨e0, he0, hd, rfl⟩ := forall2_mem' hf he
      exact ⟨g4.has _ _ (g3.has _ _ (g2.has _ _ ((ensureAll_ok h1).2 e0.layer
          (List.mem_cons_of_mem _ (List.mem_map_of_mem he0))))),
        g4.has _ _ (g3.has _ _ ((ensureAll_ok h2).2 e0.lineType (List.mem_map_of_mem he0)))⟩
  refine ((ensureAll h1).trans (g2.trans (g3.trans g4))).trans
    ⟨fun _ _ h => h, fun _ h => h, fun _ h => .inl h, fun x hx => ?_, fun _ h => .inl h,
      fun _ h => .inl h⟩
  rcases List.mem_append.mp hx with hx | hx
  · exact .inl hx
  · cases List.mem_singleton.mp hx
    exact .inr hr

theorem addBlock {d d' : Drawing Img} {b b' : Block} (h : d.addBlock b = .ok (b', d')) :
    Brings d d' := by
  obtain ⟨⟨n, d1⟩, h1, h⟩ := bind_ok h
  exact (next h1).trans (addBlockNoHandle h)

/-! ### Loading -/

theorem addRead {t : TName} {d d' : Drawing Img} {x : t.Item} (h : addRead t d x = .ok d') :
    Brings d d' := by
  unfold Drawing.addRead at h
  split at h
  · obtain ⟨⟨y, d1⟩, h1, h⟩ := bind_ok h
    cases h
    exact add h1
  · exact addNoHandle h

theorem addReadBlock {d d' : Drawing Img} {b : Block} (h : d.addReadBlock b = .ok d') :
    Brings d d' := by
  unfold Drawing.addReadBlock at h
  dsimp only at h
  split at h
  · obtain ⟨⟨y, d1⟩, h1, h⟩ := bind_ok h
    cases h
    exact addBlock h1
  · obtain ⟨⟨y, d1⟩, h1, h⟩ := bind_ok h
    cases h
    exact addBlockNoHandle h1

theorem addReadEntity {d d' : Drawing Img} {e : Entity} (h : d.addReadEntity e = .ok d') :
    Brings d d' := by
  unfold Drawing.addReadEntity at h
  split at h
  · obtain ⟨⟨y, d1⟩, h1, h⟩ := bind_ok h
    cases h
    exact addEntity h1
  · exact addEntityNoHandle h

theorem addReadObject {d d' : Drawing Img} {o : Object} (h : d.addReadObject o = .ok d') :
    Brings d d' := by
  unfold Drawing.addReadObject at h
  split at h
  · obtain ⟨⟨y, d1⟩, h1, h⟩ := bind_ok h
    cases h
    exact addObject h1
  · exact addObjectNoHandle h

theorem lift_inv {α : Type} {m : Except DxfErr α} {a : α} {s s' : Stream}
    (h : Rd.lift m s = (.ok a, s')) : m = .ok a := by
  unfold Rd.lift at h
  exact (Prod.mk.inj h).1

theorem readTable {d d' : Drawing Img} {s s' : Stream} (h : readTable d s = (.ok d', s')) :
    Brings d d' := by
  unfold Drawing.readTable at h
  obtain ⟨p, t1, -, h⟩ := Rd.bind_inv h
  split at h
  · cases h
  · obtain ⟨name, t2, -, h⟩ := Rd.bind_inv h
    cases ht : tableOf name with
    | some t =>
      rw [ht] at h
      obtain ⟨xs, t3, -, h⟩ := Rd.bind_inv h
      obtain ⟨d1, t4, h4, h⟩ := Rd.bind_inv h
      obtain ⟨u, t5, -, h⟩ := Rd.bind_inv h
      cases h
      exact foldlM addRead (lift_inv h4)
    | none =>
      rw [ht] at h
      obtain ⟨u, t3, -, h⟩ := Rd.bind_inv h
      obtain ⟨u, t4, -, h⟩ := Rd.bind_inv h
      cases h
      exact refl d

theorem readBlock {d d' : Drawing Img} {s s' : Stream} (h : readBlock d s = (.ok d', s')) :
    Brings d d' := by
  obtain ⟨b, t1, -, h⟩ := Rd.bind_inv h
  exact addReadBlock (lift_inv h)

theorem readItems {type : Str} {callback : Drawing Img → Rd (Drawing Img)}
    (hc : ∀ {d d' : Drawing Img} {s s' : Stream}, callback d s = (.ok d', s') → Brings d d')
    (fuel : Nat) : ∀ {d d' : Drawing Img} {s s' : Stream},
    readItems type callback fuel d s = (.ok d', s') → Brings d d' := by
  induction fuel with
  | zero => intro d d' s s' h; cases h
  | succ fuel ih =>
    intro d d' s s' h
    unfold Drawing.readItems at h
    obtain ⟨p, t1, -, h⟩ := Rd.bind_inv h
    split at h
    · obtain ⟨name, t2, -, h⟩ := Rd.bind_inv h
      split at h
      · cases h
        exact refl d
      · split at h
        · obtain ⟨d1, t3, h1, h⟩ := Rd.bind_inv h
          exact (hc h1).trans (ih h)
        · cases h
    · cases h

theorem readSection (codec : ImageCodec Img) (h0 : Header) {name : Str} {d d' : Drawing Img}
    {s s' : Stream} (h : readSection codec h0 name d s = (.ok d', s')) : Brings d d' := by
  unfold Drawing.readSection at h
  split at h
  · obtain ⟨x, t1, -, h⟩ := Rd.bind_inv h
    cases h
    exact ⟨fun _ _ h => h, fun _ h => h, fun _ h => .inl h, fun _ h => .inl h, fun _ h => .inl h,
      fun _ h => .inl h⟩
  split at h
  · obtain ⟨x, t1, -, h⟩ := Rd.bind_inv h
    cases h
    exact ⟨fun _ _ h => h, fun _ h => h, fun _ h => .inl h, fun _ h => .inl h, fun _ h => .inl h,
      fun _ h => .inl h⟩
  split at h
  · rw [Rd.run_withFuel] at h
    exact readItems readTable _ h
  split at h
  · rw [Rd.run_withFuel] at h
    exact readItems readBlock _ h
  split at h
  · obtain ⟨es, t1, -, h⟩ := Rd.bind_inv h
    exact foldlM addReadEntity (lift_inv h)
  split at h
  · obtain ⟨es, t1, -, h⟩ := Rd.bind_inv h
    exact foldlM addReadObject (lift_inv h)
  split at h
  · obtain ⟨x, t1, -, h⟩ := Rd.bind_inv h
    cases h
    exact ⟨fun _ _ h => h, fun _ h => h, fun _ h => .inl h, fun _ h => .inl h, fun _ h => .inl h,
      fun _ h => .inl h⟩
  · obtain ⟨x, t1, -, h⟩ := Rd.bind_inv h
    cases h
    exact refl d

theorem readSections (codec : ImageCodec Img) (h0 : Header) (fuel : Nat) :
    ∀ {d d' : Drawing Img} {s s' : Stream},
    readSections codec h0 fuel d s = (.ok d', s') → Brings d d' := by
  induction fuel with
  | zero => intro d d' s s' h; cases h
  | succ fuel ih =>
    intro d d' s s' h
    rcases readSections_inv codec h0 h with ⟨-, rfl⟩ | ⟨p, t, -, -, -, rfl, -⟩ |
      ⟨p, q, name, t1, t2, d1, t3, t4, -, -, -, -, -, -, h1, -, h2⟩
    · exact refl _
    · exact refl _
    · exact (readSection codec h0 h1).trans (ih h2)

end Brings

theorem closed_clear (d : Drawing Img) : Closed d.clear :=
  ⟨(fun _ h => nomatch h), (fun _ h => nomatch h), (fun _ h => nomatch h), (fun _ h => nomatch h)⟩

/-! ### Normalizing -/

theorem closed_normalize {order : List Str} {d d' : Drawing Img} (h : d.normalize order = .ok d')
    (hd : Closed d) : Closed d' := by
  obtain ⟨-, -, -, -, -, -, -, hs, -⟩ := normalize_ok h
  have hn := h
  rw [normalize_eq] at h
  obtain ⟨d1, h1, h⟩ := bind_ok h
  obtain ⟨d2, h2, h⟩ := bind_ok h
  obtain ⟨d3, h3, h⟩ := bind_ok h
  obtain ⟨d4, h4, h⟩ := bind_ok h
  obtain ⟨d5, h5, h⟩ := bind_ok h
  obtain ⟨d6, h6, h⟩ := bind_ok h
  obtain ⟨d7, h7, h⟩ := bind_ok h
  obtain ⟨d8, h8, h⟩ := bind_ok h
  obtain ⟨d9, h9, h⟩ := bind_ok h
  cases h
  have ga := (Brings.ensureAll h1).trans ((Brings.ensureAll h2).trans (Brings.ensure h3))
  have g6 := Brings.ensureAll h6
  have g7 := (Brings.ensureAll h7).trans ((Brings.ensure h8).trans (Brings.ensureAll h9))
  have gb := (Brings.ensureAll h4).trans ((Brings.ensure h5).trans (g6.trans g7))
  have hl : d9.has .layer str!"0" = true := g7.has _ _ (g6.has _ _ (ensure_ok h5).2)
  have hc : d9.has .lineType str!"CONTINUOUS" = true :=
    g7.has _ _ ((ensureAll_ok h6).2 _ (by simp))
  have k : ∀ t s, d.has t s = true → d9.has t s = true := fun t s hs =>
    gb.has _ _ ((has_mid _ _ _).trans (ga.has _ _ hs))
  have ko : ∀ o ∈ d.objects, o ∈ d9.objects := fun o ho => gb.styles _ (ga.styles o ho)
  have kd : ∀ s, d.has .layer s = true → d9.has .layer (defaultIfEmpty s str!"0") = true := by
    intro s hs
    unfold defaultIfEmpty
    split
    · exact hl
    · exact k _ _ hs
  have r : Retains d d9 := ⟨k, fun s ⟨o, ho, hs⟩ => ⟨o, ko o ho, hs⟩⟩
  have r3 : Retains d3 d9 := ⟨fun t s hs => gb.has _ _ ((has_mid _ _ _).trans hs),
    fun s ⟨o, ho, hs⟩ => ⟨o, gb.styles o ho, hs⟩⟩
  have c9 : Closed d9 := by
    refine ⟨fun x hx => ?_, fun b hb => ?_, fun e he => ?_, fun o ho => ?_⟩
    · refine (gb.layers x hx).elim (fun hx => ?_) id
      obtain ⟨y, hy, rfl⟩ := List.mem_map.mp hx
      have hy' : d9.has .lineType (y.fields 4) = true :=
        (ga.layers y hy).elim (fun hy => k _ _ (hd.layers y hy)) fun hy => r3.has _ _ hy
      have hd' : ∀ s, d9.has .lineType s = true →
          d9.has .lineType (defaultIfEmpty s str!"CONTINUOUS") = true := by
        intro s hs
        unfold defaultIfEmpty
        split
        · exact hc
        · exact hs
      exact hd' _ hy'
    · refine (gb.blocks b hb).elim (fun hb => ?_) id
      refine (ga.blocks b hb).elim (fun hb => ?_) r3.block
      obtain ⟨c, hc, rfl⟩ := List.mem_map.mp hb
      have := hd.blocks c hc
      exact ⟨kd _ this.1, (r.block this).2.1, (r.block this).2.2⟩
    · refine (gb.entities e he).elim (fun he => ?_) id
      refine (ga.entities e he).elim (fun he => ?_) r3.entity
      obtain ⟨c, hc, rfl⟩ := List.mem_map.mp he
      have := hd.entities c hc
      have h' := r.entity this
      refine ⟨kd _ this.1, h'.2.1, ?_⟩
      obtain ⟨⟨kk, s, x⟩, ex⟩ := c
      cases kk <;> exact h'.2.2
    · refine (gb.objects o ho).elim (fun ho => ?_) id
      exact (ga.objects o ho).elim (fun ho => r.object (hd.objects o ho)) r3.object
  have rs : Retains d9 d9.sorted := ⟨fun t s hs => (has_sorted _ _ _).trans hs, fun _ h => h⟩
  refine ⟨fun x hx => rs.layer (c9.layers x ?_), fun b hb => rs.block (c9.blocks b hb),
    fun e he => rs.entity (c9.entities e he), fun o ho => rs.object (c9.objects o ho)⟩
  exact (perm_sorted d9 .layer).mem_iff.mp hx

end Drawing
end Dxf
