import Verif.Spec.Built
import Verif.Lemmas.AgainLasting
import Verif.Props.Frame

/-! What is true of all drawings that a program makes (C63). -/

namespace Dxf

open Drawing

variable {Img : Type} {v : Version}

/-! ### Items -/

theorem TName.fair_named (t : TName) (s : Str) (h : Handle) : t.Fair (t.setHandle (t.named s) h) := by
  cases t
  case layer =>
    refine ⟨nofun, ?_⟩
    change (7#16 : I16).toInt ≠ _
    decide
  all_goals exact nofun

theorem TName.fair_setHandle {t : TName} {x : t.Item} (hx : t.Fair x) (h : Handle) :
    t.Fair (t.setHandle x h) := by
  cases t <;> exact hx

theorem TName.fair_normalize {t : TName} {x : t.Item} (hx : t.Fair x) : t.Fair (t.normalize x) := by
  cases t
  case layer =>
    refine ⟨hx.1, ?_⟩
    have key : ∀ c : I16, c.toInt ≠ -32768 → (layerColor c).toInt ≠ -32768 := by
      intro c hc
      unfold layerColor
      split
      · decide
      · exact hc
    exact key _ hx.2
  all_goals exact hx

theorem Entity.fair_setHandle {e : Entity} (he : e.Fair v) (h : Handle) : (e.setHandle h).Fair v := he

theorem Entity.fair_normalize {e : Entity} (he : e.Fair v) : e.normalize.Fair v := he

theorem Block.fair_normalize {b : Block} (hb : b.Fair v) : b.normalize.Fair v := hb

theorem Object.fair_setHandle {o : Object} (ho : o.Fair v) (h : Handle) : (o.setHandle h).Fair v := by
  obtain ⟨k, a, x⟩ := o
  intro hv
  obtain ⟨h1, h2⟩ := ho hv
  exact ⟨by cases k <;> exact h1, h2⟩

theorem Object.fair_style (s : Str) (h : Handle) : ((Object.mlineStyle s).setHandle h).Fair v :=
  fun _ => ⟨trivial, nofun⟩

namespace Drawing

/-- Everything in the drawing comes back. -/
structure AllFair (v : Version) (d : Drawing Img) : Prop where
  tables : ∀ t, ∀ x ∈ d.tables t, t.Fair x
  blocks : ∀ b ∈ d.blocks, b.Fair v
  entities : ∀ e ∈ d.entities, e.Fair v
  objects : ∀ o ∈ d.objects, o.Fair v

theorem AllFair.provides {d d' : Drawing Img} {needs : TName → Str → Prop}
    (h : ∀ t, ∀ x ∈ d.tables t, t.Fair x) (hp : Provides needs d d') :
    ∀ t, ∀ x ∈ d'.tables t, t.Fair x := by
  intro t x hx
  obtain ⟨new, e, -, hn⟩ := hp.tables t
  rw [e] at hx
  rcases List.mem_append.mp hx with hx | hx
  · exact h t x hx
  · rw [(hn x hx).2.2]
    exact t.fair_named _ _

theorem AllFair.grows {d d' : Drawing Img} (h : d.AllFair v) (g : Grows d d') : d'.AllFair v where
  tables := by
    intro t x hx
    obtain ⟨new, e, hn, -⟩ := g.tables t
    rw [e] at hx
    rcases List.mem_append.mp hx with hx | hx
    · exact h.tables t x hx
    · rw [(hn x hx).2]
      exact t.fair_named _ _
  blocks := by rw [g.blocks]; exact h.blocks
  entities := by rw [g.entities]; exact h.entities
  objects := by
    intro o ho
    obtain ⟨new, e, hn, -⟩ := g.objects
    rw [e] at ho
    rcases List.mem_append.mp ho with ho | ho
    · exact h.objects o ho
    · obtain ⟨s, hs, -⟩ := hn o ho
      rw [hs]
      exact Object.fair_style _ _

theorem AllFair.normalize {d d' : Drawing Img} {order : List Str} (h : d.AllFair v)
    (hn : d.normalize order = .ok d') : d'.AllFair v := by
  obtain ⟨d1, d2, g1, g2, rfl, -⟩ := normalize_ok hn
  have hp : d.prep.AllFair v := {
    tables := h.tables
    blocks := by
      intro b hb
      obtain ⟨b, hb', rfl⟩ := List.mem_map.mp hb
      exact Block.fair_normalize (h.blocks b hb')
    entities := by
      intro e he
      obtain ⟨e, he', rfl⟩ := List.mem_map.mp he
      exact Entity.fair_normalize (h.entities e he')
    objects := h.objects }
  have h1 := hp.grows g1
  have hm : d1.mid.AllFair v := {
    tables := by
      intro t x hx
      obtain ⟨x, hx', rfl⟩ := List.mem_map.mp hx
      exact TName.fair_normalize (h1.tables t x hx')
    blocks := h1.blocks
    entities := h1.entities
    objects := h1.objects }
  have h2 := hm.grows g2
  exact {
    tables := fun t x hx => h2.tables t x (List.mem_mergeSort.mp hx)
    blocks := h2.blocks
    entities := h2.entities
    objects := h2.objects }

theorem map_snd {α : Type} {r : Except DxfErr (α × Drawing Img)} {d' : Drawing Img}
    (h : r.map (·.2) = .ok d') : ∃ a, r = .ok (a, d') := by
  cases r with
  | error => cases h
  | ok a =>
    cases h
    exact ⟨a.1, rfl⟩

theorem mem_push {d : Drawing Img} {t t' : TName} {x : t.Item} {y : t'.Item}
    (h : y ∈ (d.push t x).tables t') : y ∈ d.tables t' ∨ ∃ e : t = t', y = e ▸ x := by
  unfold push setTable at h
  dsimp only at h
  split at h
  · rename_i e
    subst e
    rcases List.mem_append.mp h with h | h
    · exact .inl h
    · exact .inr ⟨rfl, List.mem_singleton.mp h⟩
  · exact .inl h

theorem AllFair.step {d d' : Drawing Img} {op : Op} (h : d.AllFair v) (hop : op.Fair v)
    (hr : op.run d = .ok d') : d'.AllFair v := by
  cases op with
  | add t x =>
    obtain ⟨y, hy⟩ := map_snd hr
    obtain ⟨rfl, e1, e2, e3, d1, hp, -, rfl⟩ := C60_table hy
    refine ⟨fun t' z hz => ?_, e1 ▸ h.blocks, e2 ▸ h.entities, e3 ▸ h.objects⟩
    rcases mem_push hz with hz | ⟨rfl, rfl⟩
    · exact AllFair.provides h.tables hp t' z hz
    · exact TName.fair_setHandle hop _
  | addBlock b =>
    obtain ⟨b', hy⟩ := map_snd hr
    obtain ⟨e0, hf, e1, e2, e3, -, -, -, ⟨hd, e4⟩, d1, hp, e5⟩ := C60_block hy
    refine ⟨fun t z hz => ?_, ?_, e2 ▸ h.entities, e3 ▸ h.objects⟩
    · by_cases ht : t = .blockRecord
      · subst ht
        rw [e4] at hz
        rcases List.mem_append.mp hz with hz | hz
        · exact h.tables _ z hz
        · rw [List.mem_singleton.mp hz]
          exact TName.fair_named _ _ _
      · rw [e5 t ht] at hz
        exact AllFair.provides h.tables hp t z hz
    · rw [e1]
      intro c hc
      rcases List.mem_append.mp hc with hc | hc
      · exact h.blocks c hc
      · rw [List.mem_singleton.mp hc]
        obtain ⟨k1, k2, k3⟩ := hop
        refine ⟨?_, ?_, fun e he => ?_⟩
        · rw [e0]
          exact k1
        · rw [e0]
          exact k2
        · obtain ⟨f, hf', hd, rfl⟩ := forall2_origin hf he
          exact k3 f hf'
  | addEntity e =>
    obtain ⟨e', hy⟩ := map_snd hr
    obtain ⟨f1, f2, e1, e2, hp, ho⟩ := C60_entity hy
    refine ⟨AllFair.provides h.tables hp, e2 ▸ h.blocks, ?_, ?_⟩
    · rw [e1]
      intro c hc
      rcases List.mem_append.mp hc with hc | hc
      · exact h.entities c hc
      · rw [List.mem_singleton.mp hc]
        obtain ⟨fl, ex⟩ := e'
        cases f1
        exact Entity.fit_same (e := e.setHandle d.next) hop rfl rfl f2
    · rcases ho with ho | ⟨s, hd, -, -, ho⟩
      · rw [ho]
        exact h.objects
      · rw [ho]
        intro o hm
        rcases List.mem_append.mp hm with hm | hm
        · exact h.objects o hm
        · rw [List.mem_singleton.mp hm]
          exact Object.fair_style _ _
  | addObject o =>
    obtain ⟨o', hy⟩ := map_snd hr
    obtain ⟨rfl, e1, e2, e3, hp⟩ := C60_object hy
    refine ⟨AllFair.provides h.tables hp, e2 ▸ h.blocks, e3 ▸ h.entities, ?_⟩
    rw [e1]
    intro q hm
    rcases List.mem_append.mp hm with hm | hm
    · exact h.objects q hm
    · rw [List.mem_singleton.mp hm]
      exact Object.fair_setHandle hop _
  | remove t i =>
    cases hr
    refine ⟨fun t' x hx => ?_, h.blocks, h.entities, h.objects⟩
    unfold Drawing.remove setTable at hx
    rw [removeItem_eq] at hx
    dsimp only at hx
    split at hx
    · rename_i e
      subst e
      exact h.tables _ x (List.mem_of_mem_eraseIdx hx)
    · exact h.tables t' x hx
  | removeBlock i =>
    cases hr
    refine ⟨h.tables, fun x hx => ?_, h.entities, h.objects⟩
    unfold Drawing.removeBlock at hx
    rw [removeItem_eq] at hx
    exact h.blocks x (List.mem_of_mem_eraseIdx hx)
  | removeEntity i =>
    cases hr
    refine ⟨h.tables, h.blocks, fun x hx => ?_, h.objects⟩
    unfold Drawing.removeEntity at hx
    rw [removeItem_eq] at hx
    exact h.entities x (List.mem_of_mem_eraseIdx hx)
  | removeObject i =>
    cases hr
    refine ⟨h.tables, h.blocks, h.entities, fun x hx => ?_⟩
    unfold Drawing.removeObject at hx
    rw [removeItem_eq] at hx
    exact h.objects x (List.mem_of_mem_eraseIdx hx)
  | clear =>
    cases hr
    exact ⟨fun _ => nofun, nofun, nofun, nofun⟩
  | normalize order => exact h.normalize hr
  | own hd =>
    obtain ⟨y, hy⟩ := map_snd hr
    unfold assignHandle at hy
    split at hy
    · exact h.grows (Taken.one hy).grows
    · cases hy
      exact h

/-! ### Counting -/

theorem sum_le_map {α : Type} (f : α → Nat) {l l' : List α} (h : l.Sublist l') :
    (l.map f).sum ≤ (l'.map f).sum := by
  induction h with
  | slnil => exact Nat.le_refl _
  | cons a h ih =>
    rw [List.map_cons, List.sum_cons]
    omega
  | cons_cons a h ih =>
    rw [List.map_cons, List.sum_cons, List.map_cons, List.sum_cons]
    omega

theorem details_of {d d' : Drawing Img} (he : d'.entities = d.entities)
    (ho : d'.objects = d.objects) : d'.details = d.details := by
  unfold details
  rw [he, ho]

theorem details_step {d d' : Drawing Img} {op : Op} (hr : op.run d = .ok d') :
    d'.details ≤ d.details + op.cost := by
  cases op with
  | add t x =>
    obtain ⟨y, hy⟩ := map_snd hr
    obtain ⟨rfl, e1, e2, e3, -⟩ := C60_table hy
    rw [details_of e2 e3]
    omega
  | addBlock b =>
    obtain ⟨b', hy⟩ := map_snd hr
    obtain ⟨e0, hf, e1, e2, e3, -⟩ := C60_block hy
    rw [details_of e2 e3]
    omega
  | addEntity e =>
    obtain ⟨e', hy⟩ := map_snd hr
    obtain ⟨f1, f2, e1, e2, hp, ho⟩ := C60_entity hy
    have k1 := congrArg (fun e => e.atts.length) f2
    have k2 := congrArg (fun e => e.verts.length) f2
    simp only [Extra.unhandled, List.length_map] at k1 k2
    have k3 : (d'.objects.map fun o : Object => 2 * o.layers.length).sum =
        (d.objects.map fun o : Object => 2 * o.layers.length).sum := by
      rcases ho with ho | ⟨s, hd, -, -, ho⟩
      · rw [ho]
      · rw [ho, List.map_append, List.sum_append]
        rfl
    unfold details
    rw [k3, e1, List.map_append, List.sum_append, List.map_cons, List.map_nil, List.sum_cons,
      List.sum_nil, k1, k2]
    change _ ≤ _ + (18 + _ + _)
    omega
  | addObject o =>
    obtain ⟨o', hy⟩ := map_snd hr
    obtain ⟨rfl, e1, e2, e3, hp⟩ := C60_object hy
    have : (o.setHandle d.next).layers = o.layers := by
      obtain ⟨k, a, x⟩ := o
      cases k <;> rfl
    unfold details
    rw [e1, e3, List.map_append, List.sum_append, List.map_cons, List.map_nil, List.sum_cons,
      List.sum_nil, this]
    change _ ≤ _ + (7 + _)
    omega
  | remove t i =>
    cases hr
    exact Nat.le_refl _
  | removeBlock i =>
    cases hr
    exact Nat.le_refl _
  | removeEntity i =>
    cases hr
    unfold details Drawing.removeEntity
    rw [removeItem_eq]
    have := sum_le_map (fun e : Entity => e.extra.atts.length + e.extra.verts.length)
      (List.eraseIdx_sublist d.entities i)
    dsimp only
    omega
  | removeObject i =>
    cases hr
    unfold details Drawing.removeObject
    rw [removeItem_eq]
    have := sum_le_map (fun o : Object => 2 * o.layers.length) (List.eraseIdx_sublist d.objects i)
    dsimp only
    omega
  | clear =>
    cases hr
    exact Nat.zero_le _
  | normalize order =>
    obtain ⟨d1, d2, g1, g2, rfl, -, e, -⟩ := normalize_ok hr
    have : d2.sorted.details = d.details := by
      unfold details
      rw [show d2.sorted.entities = d.entities.map Entity.normalize from g2.entities.trans g1.entities,
        show d2.sorted.objects = d.objects from e, List.map_map]
      rfl
    omega
  | own hd =>
    obtain ⟨y, hy⟩ := map_snd hr
    unfold assignHandle at hy
    split at hy
    · obtain ⟨-, e, -⟩ := nextHandle_ok hy
      rw [details_of (d := d) (by rw [e]) (by rw [e])]
      omega
    · cases hy
      exact Nat.le_add_right _ _

theorem next_step {d d' : Drawing Img} {op : Op} (hr : op.run d = .ok d')
    (h : d.next.toNat + op.cost < 2 ^ 64) : d'.next.toNat ≤ max 1 (d.next.toNat + op.cost) := by
  obtain ⟨d1, h1, h2⟩ := step_ok h
  rw [h1] at hr
  cases hr
  exact h2

theorem Safe.same {d d' : Drawing Img} (hs : Safe (fun _ => []) d) (hh : d'.handles = d.handles)
    (hn : d'.next = d.next) : Safe (fun _ => []) d' := by
  unfold Safe at *
  rw [handlesOf_none] at *
  rw [hh, hn]
  exact hs

theorem Changed.handles {d d' : Drawing Img} (h : Changed v d d') : d'.handles = d.handles := by
  have key : ∀ {α β : Type} {R : α → α → Prop} {f : α → β} {l l' : List α},
      List.Forall₂ R l l' → (∀ a b, R a b → f b = f a) → l'.map f = l.map f := by
    intro α β R f l l' hl hR
    induction hl with
    | nil => rfl
    | cons hab _ ih => rw [List.map_cons, List.map_cons, hR _ _ hab, ih]
  unfold Drawing.handles
  have e1 : ∀ t : TName, (d'.tables t).map t.handle = (d.tables t).map t.handle :=
    fun t => key (h.tables t) fun a b h => h.1
  have e2 : d'.blocks.map Block.handle = d.blocks.map Block.handle := key h.blocks fun a b h => h.1
  have e3 : d'.blocks.map (fun b => b.entities.map Entity.handle) =
      d.blocks.map (fun b => b.entities.map Entity.handle) := key h.blocks fun a b h => h.2.2
  have e4 : d'.entities.map Entity.handle = d.entities.map Entity.handle :=
    key h.entities fun a b h => h.1
  have e5 : d'.objects.map Object.handle = d.objects.map Object.handle :=
    key h.objects fun a b h => h.1
  simp only [e1, e2, e4, e5, List.flatMap_def, e3]

theorem Changed.fair {d d' : Drawing Img} (h : Changed v d d') : d'.AllFair v where
  tables := fun t x hx => by
    obtain ⟨_, -, h⟩ := forall2_origin (h.tables t) hx
    exact h.2
  blocks := fun x hx => by
    obtain ⟨_, -, h⟩ := forall2_origin h.blocks hx
    exact h.2.1
  entities := fun x hx => by
    obtain ⟨_, -, h⟩ := forall2_origin h.entities hx
    exact h.2
  objects := fun x hx => by
    obtain ⟨_, -, h⟩ := forall2_origin h.objects hx
    exact h.2

/-- What is known about a drawing that was made. -/
theorem Made.known {n : Nat} {d : Drawing Img} (h : Made v n d) (hn : n < 2 ^ 64) :
    d.AllFair v ∧ Safe (fun _ => []) d ∧ d.next.toNat ≤ n ∧ d.details ≤ n ∧ 0 < n := by
  induction h with
  | @new h0 order d hf hd =>
    have h141 : h0 141 = (1#64 : Handle) := hf 141 (by decide)
    have hs : Safe (fun _ => []) d := by
      refine Safe.gains ?_ (gains_normalize hd fun _ => rfl)
      refine ⟨?_, ?_, ?_⟩
      · simp [handlesOf, Drawing.handles, TName.all]
      · simp [handlesOf, Drawing.handles, TName.all]
      · change 0 < BitVec.toNat (h0 141 : Handle)
        rw [h141]
        decide
    have h1 := next_step (op := .normalize order) hd (by
      change BitVec.toNat (h0 141 : Handle) + (40 + 2 * order.length) < _
      rw [h141]
      change 1 + _ < _
      omega)
    change _ ≤ max 1 (BitVec.toNat (h0 141 : Handle) + (40 + 2 * order.length)) at h1
    rw [h141] at h1
    change _ ≤ max 1 (1 + (40 + 2 * order.length)) at h1
    have h2 := details_step (op := .normalize order) hd
    change _ ≤ 0 + (40 + 2 * order.length) at h2
    refine ⟨AllFair.normalize ?_ hd, hs, by omega, by omega, by omega⟩
    exact ⟨fun _ => nofun, nofun, nofun, nofun⟩
  | @op n op d d' _ hop hr ih =>
    obtain ⟨h1, h2, h3, h4, h5⟩ := ih (by omega)
    have k1 := next_step hr (by omega)
    have k2 := details_step hr
    refine ⟨h1.step hop hr, ?_, by omega, by omega, by omega⟩
    rcases Op.gains (c := fun _ => []) hr (fun _ _ _ => .inl rfl) (fun _ _ _ _ _ => rfl)
      (fun _ => rfl) with rfl | g
    · cases hr
      exact Safe.clear _
    · exact h2.gains g
  | @change n d d' _ hc ih =>
    obtain ⟨h1, h2, h3, h4, h5⟩ := ih (by omega)
    have e : d'.next = d.next := by
      unfold Drawing.next
      rw [hc.header]
    exact ⟨hc.fair, h2.same hc.handles e, by rw [e]; omega, by omega, by omega⟩
  | @header n h d _ he ih =>
    obtain ⟨h1, h2, h3, h4, h5⟩ := ih hn
    have e : Drawing.next { d with header := h } = d.next := he
    exact ⟨⟨h1.tables, h1.blocks, h1.entities, h1.objects⟩, h2.same rfl e, by rw [e]; exact h3, h4,
      h5⟩
  | classes _ ih =>
    obtain ⟨h1, h2, h3, h4, h5⟩ := ih hn
    exact ⟨⟨h1.tables, h1.blocks, h1.entities, h1.objects⟩, h2, h3, h4, h5⟩
  | thumbnail _ ih =>
    obtain ⟨h1, h2, h3, h4, h5⟩ := ih hn
    exact ⟨⟨h1.tables, h1.blocks, h1.entities, h1.objects⟩, h2, h3, h4, h5⟩

theorem sum_add_map {α : Type} (f : α → Nat) (k : Nat) (l : List α) :
    (l.map fun x => k + f x).sum = k * l.length + (l.map f).sum := by
  induction l with
  | nil => rfl
  | cons a l ih =>
    rw [List.map_cons, List.sum_cons, ih, List.map_cons, List.sum_cons, List.length_cons,
      Nat.mul_add]
    omega

theorem sum_mul_map {α : Type} (f : α → Nat) (k : Nat) (l : List α) :
    (l.map fun x => k * f x).sum = k * (l.map f).sum := by
  induction l with
  | nil => rfl
  | cons a l ih => rw [List.map_cons, List.sum_cons, ih, List.map_cons, List.sum_cons, Nat.mul_add]

/-- The handles suffice for saving and loading. -/
theorem demand_made (d : Drawing Img) : d.demand ≤ 18 * d.handles.length + d.details := by
  unfold demand details Drawing.handles
  have h1 : (d.entities.map fun e => 18 + e.extra.atts.length + e.extra.verts.length).sum =
      18 * d.entities.length + (d.entities.map fun e => e.extra.atts.length +
        e.extra.verts.length).sum := by
    rw [← sum_add_map]
    exact congrArg List.sum (List.map_congr_left fun e _ => by omega)
  simp only [List.length_append, List.length_flatMap, List.length_map]
  rw [h1, sum_add_map (fun o : Object => 2 * o.layers.length), sum_mul_map, sum_add_map
    (fun b : Block => 5 * b.entities.length), sum_mul_map]
  have : (d.blocks.map fun a : Block => a.entities.length).sum =
    (d.blocks.map fun b : Block => b.entities.length).sum := rfl
  omega

theorem Made.room {n : Nat} {d : Drawing Img} (h : Made v n d) (hn : n < 2 ^ 59) :
    d.next.toNat + d.demand < 2 ^ 64 := by
  obtain ⟨-, ⟨h1, h2, -⟩, h3, h4, -⟩ := h.known (by omega)
  have := demand_made d
  rw [handlesOf_none] at h1 h2
  have hl := length_le_of_interval (a := 0) (b := d.next.toNat) h1 fun x hx => ⟨by omega, (h2 x hx).2⟩
  omega

end Drawing

end Dxf
