import Verif.Lemmas.Undo
import Verif.Props.Change
import Verif.Props.Frame

/-! What was added can be removed again (C75). -/

namespace Dxf

variable {Img : Type}

open Drawing

/-- C75: an entry that was added to a table can be removed again.  What is returned is the entry as
it was added.  The drawing is as before, but for the line type of a layer and the next handle. -/
theorem C75_table {d d' : Drawing Img} {t : TName} {x y : t.Item} (h : d.add t x = .ok (y, d')) :
    ∃ d1, d'.remove t (d.tables t).length = (some y, d1) ∧ Provides (t.Needs x) d d1 ∧
      d1.tables t = d.tables t ∧ d1.blocks = d.blocks ∧ d1.entities = d.entities ∧
      d1.objects = d.objects := by
  obtain ⟨-, hb, he, ho, d1, hp, ht, rfl⟩ := C60_table h
  refine ⟨d1, ?_, hp, ht, hb, he, ho⟩
  rw [← ht]
  exact remove_push d1 t y

/-- C75 for entities.  A multiline style that was missing stays, too. -/
theorem C75_entity {d d' : Drawing Img} {e e' : Entity} (h : d.addEntity e = .ok (e', d')) :
    ∃ d1, d'.removeEntity d.entities.length = (some e', d1) ∧ Provides e.Needs d d1 ∧
      d1.entities = d.entities ∧ d1.blocks = d.blocks ∧
      (d1.objects = d.objects ∨ ∃ s hd, e.mlineStyle = some s ∧
        (∀ o ∈ d.objects, o.styleName ≠ some s) ∧
        d1.objects = d.objects ++ [(Object.mlineStyle s).setHandle hd]) := by
  obtain ⟨-, -, he, hb, hp, ho⟩ := C60_entity h
  refine ⟨{ d' with entities := d.entities }, ?_, ⟨hp.1, hp.2, hp.3, hp.4, hp.5⟩, rfl, hb, ho⟩
  unfold removeEntity
  rw [he, removeItem_last]

/-- C75 for entities whose layer, line type and styles are there: only the next handle is
different. -/
theorem C75_exact {d d' : Drawing Img} {e e' : Entity} (hr : d.EntityRefs e)
    (h : d.addEntity e = .ok (e', d')) :
    ∃ n : Handle, d'.removeEntity d.entities.length =
      (some e', { d with header := d.header.set 141 n }) := by
  obtain ⟨n, rfl⟩ := addEntity_plain hr h
  refine ⟨n, ?_⟩
  unfold removeEntity
  rw [removeItem_last]

/-- C75 for objects. -/
theorem C75_object {d d' : Drawing Img} {o o' : Object} (h : d.addObject o = .ok (o', d')) :
    ∃ d1, d'.removeObject d.objects.length = (some o', d1) ∧ Provides o.Needs d d1 ∧
      d1.objects = d.objects ∧ d1.blocks = d.blocks ∧ d1.entities = d.entities := by
  obtain ⟨-, ho, hb, he, hp⟩ := C60_object h
  refine ⟨{ d' with objects := d.objects }, ?_, ⟨hp.1, hp.2, hp.3, hp.4, hp.5⟩, rfl, hb, he⟩
  unfold removeObject
  rw [ho, removeItem_last]

/-- C75 for blocks, in part: the block record that was added with the block stays. -/
theorem C75_block_partial {d d' : Drawing Img} {b b' : Block} (h : d.addBlock b = .ok (b', d')) :
    ∃ d1, d'.removeBlock d.blocks.length = (some b', d1) ∧
      d1.blocks = d.blocks ∧ d1.entities = d.entities ∧ d1.objects = d.objects ∧
      d1.classes = d.classes ∧ d1.thumbnail = d.thumbnail ∧
      (∀ i, i ≠ 141 → d1.header i = d.header i) ∧
      (∃ hd, d1.tables .blockRecord = d.tables .blockRecord ++
        [TName.setHandle .blockRecord (TName.named .blockRecord b.name) hd]) ∧
      ∃ d2, Provides b.Needs d d2 ∧ ∀ t, t ≠ .blockRecord → d1.tables t = d2.tables t := by
  obtain ⟨-, -, hb, he, ho, hc, ht, hh, hr, d2, hp, h2⟩ := C60_block h
  refine ⟨{ d' with blocks := d.blocks }, ?_, rfl, he, ho, hc, ht, hh, hr, d2, hp, h2⟩
  unfold removeBlock
  rw [hb, removeItem_last]

/-- C75 is violated for blocks: the record stays, so that there is one more whenever a block is added
and removed again. -/
theorem C75_violated {d d' : Drawing Img} {b b' : Block} (h : d.addBlock b = .ok (b', d')) :
    ((d'.removeBlock d.blocks.length).2.tables .blockRecord).length =
      (d.tables .blockRecord).length + 1 := by
  obtain ⟨d1, h1, -, -, -, -, -, -, ⟨hd, h2⟩, -⟩ := C75_block_partial h
  rw [h1, h2]
  simp

/-- C75: after an entity whose layer, line type and styles are there was added and removed, the file
differs from what it would have been only in the next handle. -/
theorem C75_file {codec : ImageCodec Img} {d d' : Drawing Img} {e e' : Entity} {ps : List CodePair}
    (hr : d.EntityRefs e) (h : d.addEntity e = .ok (e', d')) (hs : d.codePairs codec = .ok ps) :
    ∃ before x x' behind, ps = before ++ [.newStr 9 str!"$HANDSEED", x] ++ behind ∧
      (d'.removeEntity d.entities.length).2.codePairs codec =
        .ok (before ++ [.newStr 9 str!"$HANDSEED", x'] ++ behind) := by
  obtain ⟨n, hn⟩ := C75_exact hr h
  obtain ⟨os, ts, h1, h2, rfl⟩ := codePairs_ok hs
  obtain ⟨a, b, hp⟩ := header_part (i := 141) (by decide) d.header
  obtain ⟨x, hx⟩ := header_seed d.header.version (d.header 141)
  obtain ⟨x', hx'⟩ := header_seed d.header.version n
  have hp0 := hp (d.header 141)
  have hself : Rec.set d.header 141 (d.header 141) = d.header := by
    funext i
    by_cases hi : i = 141
    · subst hi
      rw [Rec.set_self]
    · rw [Rec.set_ne _ _ hi]
  rw [hself, hx] at hp0
  have hp1 := hp n
  rw [hx'] at hp1
  refine ⟨a, x, x', b ++ d.classPairs ++ d.tablePairs ++ d.blockPairs ++ d.entityPairs ++ os ++ ts ++
    [.newStr 0 str!"EOF"], ?_, ?_⟩
  · rw [hp0]
    simp
  · rw [hn]
    refine (codePairs_of (d := { d with header := d.header.set 141 n }) h1 h2).trans
      (congrArg _ ?_)
    change Header.pairs (d.header.set 141 n) ++ d.classPairs ++ d.tablePairs ++ d.blockPairs ++
      d.entityPairs ++ os ++ ts ++ _ = _
    rw [hp1]
    simp

/-- Adding a block, an object and a layer succeeds; for entities see the example at C72. -/
example : ∃ d : Drawing Unit, ∃ r2 r3 r4, d.Reachable ∧
    d.addBlock { Block.dflt with entities := [EName.text.plain] } = .ok r2 ∧
    d.addObject (Object.mlineStyle str!"S") = .ok r3 ∧
    d.add .layer (TName.named .layer str!"L") = .ok r4 := by
  obtain ⟨d, h⟩ := C13_total (Img := Unit) (h0 := Rec.dflt _) (fun _ _ => rfl) [] [.clear]
    (by decide +kernel)
  have hr : ∀ n, n < 1000 → Room n d := by
    obtain ⟨d0, -, h2⟩ := bind_ok h
    cases h2
    exact fun n hn => by change 1 + n < _; omega
  obtain ⟨r2, h2, -⟩ := affords_block d { Block.dflt with entities := [EName.text.plain] } 0
    (hr 10 (by decide))
  obtain ⟨r3, h3, -⟩ := affords_object d (Object.mlineStyle str!"S") 0 (hr 7 (by decide))
  obtain ⟨r4, h4, -⟩ := affords_add d .layer (TName.named .layer str!"L") 0 (hr 2 (by decide))
  exact ⟨d, r2, r3, r4, ⟨_, _, _, fun _ _ => rfl, fun _ _ => trivial, h⟩, h2, h3, h4⟩

end Dxf
