import Verif.Lemmas.Frame
import Verif.Props.Drawing

/-! C60: adding an item adds that item, with a new handle, and what it refers to by name, and
changes nothing else. -/

namespace Dxf

variable {Img : Type}

open Drawing

/-- C60 for entities. -/
theorem C60_entity {d d' : Drawing Img} {e e' : Entity} (h : d.addEntity e = .ok (e', d')) :
    e'.toFlat = (e.setHandle d.next).toFlat ∧ e'.extra.unhandled = e.extra.unhandled ∧
    d'.entities = d.entities ++ [e'] ∧ d'.blocks = d.blocks ∧ Provides e.Needs d d' ∧
    (d'.objects = d.objects ∨ ∃ s hd, e.mlineStyle = some s ∧
      (∀ o ∈ d.objects, o.styleName ≠ some s) ∧
      d'.objects = d.objects ++ [(Object.mlineStyle s).setHandle hd]) := by
  obtain ⟨⟨hd, d1⟩, h1, h⟩ := bind_ok h
  obtain ⟨⟨e2, d2⟩, h2, h⟩ := bind_ok h
  obtain ⟨d3, h3, h⟩ := bind_ok h
  cases h
  obtain ⟨fs, ht, hf, -⟩ := childHandles_ok h2
  have hb := childHandles_bare h2
  have ho := addEntityNoHandle_objects h3
  have hk := only_entity h3
  rw [needs_flat hf, needs_setHandle] at hk
  obtain ⟨d4, g, -, rfl⟩ := addEntityNoHandle_ok h3
  obtain ⟨rfl, hd1, -⟩ := nextHandle_ok h1
  have g0 := (grows_next h1).trans (ht.grows.trans g)
  have o1 : d2.objects = d.objects := by
    rw [ht.same, hd1]
  have hm : e'.mlineStyle = e.mlineStyle := by
    rw [mlineStyle_flat hf]
    obtain ⟨⟨k, a, b⟩, x⟩ := e
    cases k <;> rfl
  refine ⟨hf, hb, ?_, g0.blocks, ?_, ?_⟩
  · change d4.entities ++ _ = _
    rw [g0.entities]
  · have hp := provides g0 ((Only.next h1).trans ((Only.of_eq (by rw [ht.same])).trans
      (fun t x hx => hk t x hx)))
    exact ⟨hp.header, hp.next, hp.classes, hp.thumbnail, hp.tables⟩
  · rw [Styled, hm, o1] at ho
    rcases ho.2 with ho | ⟨n, x, hs, he, hne⟩
    · exact .inl ho.1
    · exact .inr ⟨n, x, hs, hne, he⟩

/-- C60 for objects. -/
theorem C60_object {d d' : Drawing Img} {o o' : Object} (h : d.addObject o = .ok (o', d')) :
    o' = o.setHandle d.next ∧ d'.objects = d.objects ++ [o'] ∧ d'.blocks = d.blocks ∧
    d'.entities = d.entities ∧ Provides o.Needs d d' := by
  obtain ⟨⟨hd, d1⟩, h1, h⟩ := bind_ok h
  obtain ⟨d2, h2, h⟩ := bind_ok h
  cases h
  have hk := only_object (fun _ _ h => h) h2
  rw [object_needs_setHandle] at hk
  obtain ⟨d3, g, ho, -, rfl⟩ := addObjectNoHandle_ok h2
  obtain ⟨rfl, hd1, -⟩ := nextHandle_ok h1
  have g0 := (grows_next h1).trans g
  have hp := provides g0 ((Only.next h1).trans (fun t x hx => hk t x hx))
  refine ⟨rfl, ?_, g0.blocks, g0.entities,
    ⟨hp.header, hp.next, hp.classes, hp.thumbnail, hp.tables⟩⟩
  change d3.objects ++ _ = _
  rw [ho, hd1]

/-- C60 for the entries of tables. -/
theorem C60_table {d d' : Drawing Img} {t : TName} {x y : t.Item} (h : d.add t x = .ok (y, d')) :
    y = t.setHandle x d.next ∧ d'.blocks = d.blocks ∧ d'.entities = d.entities ∧
    d'.objects = d.objects ∧
    ∃ d1, Provides (t.Needs x) d d1 ∧ d1.tables t = d.tables t ∧ d' = d1.push t y := by
  have ho := add_objects h
  obtain ⟨⟨hd, d1⟩, h1, h⟩ := bind_ok h
  obtain ⟨d2, h2, h⟩ := bind_ok h
  cases h
  obtain ⟨rfl, hd1, -⟩ := nextHandle_ok h1
  have hk : ∃ d3, Grows d1 d3 ∧ Only (t.Needs x) d1 d3 ∧ d3.tables t = d1.tables t ∧
      d' = d3.push t (t.setHandle x d.next) := by
    cases t
    case layer =>
      obtain ⟨d3, h3, h2⟩ := bind_ok h2
      cases h2
      obtain ⟨g, -, ht⟩ := ensurePlain_ok h3
      exact ⟨d3, g, Only.ensurePlain (t := .lineType) rfl h3, ht _ (by decide), rfl⟩
    all_goals
      cases h2
      exact ⟨d1, .refl _, .of_eq rfl, rfl, rfl⟩
  obtain ⟨d3, g, k, ht, rfl⟩ := hk
  have g0 := (grows_next h1).trans g
  exact ⟨rfl, g0.blocks, g0.entities, ho, d3, provides g0 ((Only.next h1).trans k),
    by rw [ht, hd1], rfl⟩

/-- C60 for blocks, which come with a block record. -/
theorem C60_block {d d' : Drawing Img} {b b' : Block} (h : d.addBlock b = .ok (b', d')) :
    b'.entry = (b.setHandle d.next).entry ∧
    List.Forall₂ (fun e e' => ∃ hd, e' = e.setHandle hd) b.entities b'.entities ∧
    d'.blocks = d.blocks ++ [b'] ∧ d'.entities = d.entities ∧ d'.objects = d.objects ∧
    d'.classes = d.classes ∧ d'.thumbnail = d.thumbnail ∧
    (∀ i, i ≠ 141 → d'.header i = d.header i) ∧
    (∃ hd, d'.tables .blockRecord = d.tables .blockRecord ++
      [TName.setHandle .blockRecord (TName.named .blockRecord b.name) hd]) ∧
    ∃ d1, Provides b.Needs d d1 ∧ ∀ t, t ≠ .blockRecord → d'.tables t = d1.tables t := by
  obtain ⟨⟨hd, d1⟩, h1, h⟩ := bind_ok h
  obtain ⟨rfl, hd1, -⟩ := nextHandle_ok h1
  obtain ⟨ha, he, ho, hb, hr⟩ := addBlockNoHandle_more h
  have hn := grows_next h1
  obtain ⟨-, -, -, -, -, -, -, -, -, hf, hb', -⟩ := addBlockNoHandle_ok h
  obtain ⟨d2, h2, h⟩ := bind_ok h
  obtain ⟨d3, h3, h⟩ := bind_ok h
  obtain ⟨⟨y, d4⟩, h4, h⟩ := bind_ok h
  obtain ⟨⟨es, d5⟩, h5, h⟩ := bind_ok h
  cases h
  obtain ⟨g2, -⟩ := ensureAll_ok h2
  obtain ⟨g3, -⟩ := ensureAll_ok h3
  obtain ⟨ht, -⟩ := entityHandles_ok h5
  have k2 : Only b.Needs d1 d2 := Only.ensureAll (fun s hs => by
      rcases List.mem_cons.mp hs with rfl | hs
      · exact .inl rfl
      · obtain ⟨e, he, rfl⟩ := List.mem_map.mp hs
        exact .inr ⟨e, he, rfl⟩) (fun _ => .inl rfl) h2
  have k3 : Only b.Needs d2 d3 := Only.ensureAll (t := .lineType) (fun s hs => by
      obtain ⟨e, he, rfl⟩ := List.mem_map.mp hs
      exact .inr ⟨e, he, rfl⟩) nofun h3
  refine ⟨rfl, hf, ?_, he.trans hn.entities, ?_, ha.classes.trans hn.classes,
    ha.thumbnail.trans hn.thumbnail, fun i hi => (ha.header i hi).trans (hn.header i hi), ?_, d3,
    provides (hn.trans (g2.trans g3)) ((Only.next h1).trans (k2.trans k3)), fun t hne => ?_⟩
  · rw [hb, hn.blocks]
  · rw [ho, hd1]
  · rw [next_tables h1] at hr
    exact hr
  · change d5.tables t = _
    rw [show d5.tables = d4.tables by rw [ht.same]]
    exact add_tables h4 hne (.inr (by decide))

/-- Of every sort something can be added to a drawing with text on a layer that is not there. -/
example : ∃ d : Drawing Unit, ∃ r1 r2 r3 r4, d.Reachable ∧ d.addEntity EName.mLine.plain = .ok r1 ∧
    d.addBlock { Block.dflt with entities := [EName.text.plain] } = .ok r2 ∧
    d.addObject (Object.mlineStyle str!"S") = .ok r3 ∧
    d.add .layer (TName.named .layer str!"L") = .ok r4 ∧ d.has .layer str!"0" = false := by
  obtain ⟨d, h⟩ := C13_total (Img := Unit) (h0 := Rec.dflt _) (fun _ _ => rfl) [] [.clear]
    (by decide +kernel)
  have hr : ∀ n, n < 1000 → Room n d ∧ d.has .layer str!"0" = false := by
    obtain ⟨d0, -, h2⟩ := bind_ok h
    cases h2
    exact fun n hn => ⟨by change 1 + n < _; omega, rfl⟩
  obtain ⟨r1, h1, -⟩ := affords_entity d EName.mLine.plain 0 (hr 18 (by decide)).1
  obtain ⟨r2, h2, -⟩ := affords_block d { Block.dflt with entities := [EName.text.plain] } 0
    (hr 10 (by decide)).1
  obtain ⟨r3, h3, -⟩ := affords_object d (Object.mlineStyle str!"S") 0 (hr 7 (by decide)).1
  obtain ⟨r4, h4, -⟩ := affords_add d .layer (TName.named .layer str!"L") 0 (hr 2 (by decide)).1
  exact ⟨d, r1, r2, r3, r4, ⟨_, _, _, fun _ _ => rfl, fun _ _ => trivial, h⟩, h1, h2, h3, h4,
    (hr 0 (by decide)).2⟩

end Dxf
