import Verif.Lemmas.Built
import Verif.Props.Lookup
import Verif.Props.Bytes

/-! C63: what a program makes from a new drawing can be saved, and comes back. -/

namespace Dxf

open Drawing

variable {Img : Type} {codec : ImageCodec Img} {h0 : Header} {d : Drawing Img} {n : Nat}

/-- A drawing that was made fulfils what C41, C42 and C53 demand. -/
theorem C63_ready (hm : Made d.version n d) (hn : n < 2 ^ 59) (hr : d.Ready codec) :
    d.Faithful codec ∧ d.next.toNat + d.demand < 2 ^ 64 ∧ d.Sound ∧ 0#64 < d.next := by
  obtain ⟨h1, h2, -⟩ := hm.known (by omega)
  refine ⟨?_, hm.room hn, sound_of_safe h2, ?_⟩
  · exact {
      version := hr.version
      dates := hr.dates
      classNames := hr.classNames
      classCounts := hr.classCounts
      thumbnail := hr.thumbnail
      tables := by
        intro t x hx
        have := h1.tables t x hx
        cases t
        case layer => exact this.1
        all_goals exact this
      colors := fun x hx => (h1.tables .layer x hx).2
      blocks := fun b hb => ⟨(h1.blocks b hb).1, (h1.blocks b hb).2.1⟩
      entities := by
        intro e he
        rcases List.mem_append.mp he with he | he
        · exact h1.entities e he
        · obtain ⟨b, hb, he⟩ := List.mem_flatMap.mp he
          exact (h1.blocks b hb).2.2 e he
      objects := fun hv o ho => h1.objects o ho hv }
  · have := h2.2.2
    exact BitVec.lt_def.mpr this

/-- C63: a drawing that a program made by adding, removing, changing, clearing and normalizing, in
any order and number, can be saved; what is loaded from the file is what was saved, completed by what
names in it refer to; and no handle occurs twice in it.  (Partial: the items must be such that they
come back, see C20, C21, C22, C24 and C26, so must header, classes and thumbnail, and fewer than 2⁵⁹
things were done.) -/
theorem C63_partial (hm : Made d.version n d) (hn : n < 2 ^ 59) (hr : d.Ready codec) (hfr : h0.Fresh)
    (order : List Str) (ho : 41 + 2 * order.length < 2 ^ 64) :
    ∃ ps p d', d.codePairs codec = .ok ps ∧ load codec h0 order (toStream ps) = (.ok d', []) ∧
      d.Restored h0 p ∧ p.Completed d' ∧ d'.Sound ∧ d.next ≤ d'.next := by
  obtain ⟨h1, h2, h3, h4⟩ := C63_ready hm hn hr
  obtain ⟨ps, p, d', k1, k2, k3, k4⟩ := C42_partial hfr order ho h1 h2
  obtain ⟨ps', d'', l1, l2, l3, l4⟩ := C41_partial hfr order ho h1 h2 h3 h4
  cases Except.ok.inj (k1.symm.trans l1)
  cases Except.ok.inj (Prod.mk.inj (k2.symm.trans l2)).1
  exact ⟨ps, p, d', k1, k2, k3, k4, l3, l4⟩

/-- C63 for handles: what is found under a handle in the drawing is found under it after saving and
loading. -/
theorem C63_lookup_partial (hm : Made d.version n d) (hn : n < 2 ^ 59) (hr : d.Ready codec)
    (hw : d.writeHandles = true) (hfr : h0.Fresh) (order : List Str)
    (ho : 41 + 2 * order.length < 2 ^ 64) :
    ∃ ps d', d.codePairs codec = .ok ps ∧ load codec h0 order (toStream ps) = (.ok d', []) ∧
      (∀ h x, d.itemByHandle h = some x → x.Filed d.version →
        ∃ y, d'.itemByHandle h = some y ∧ x.Restored d.version y) ∧
      (∀ h y, h < d.next → d'.itemByHandle h = some y →
        ∃ x, d.itemByHandle h = some x ∧ x.Filed d.version ∧ x.Restored d.version y) := by
  obtain ⟨h1, h2, h3, h4⟩ := C63_ready hm hn hr
  exact C53_partial hfr order ho h1 h2 h3 h4 hw

/-- C63 for binary files: what is loaded from the bytes of the file is what was saved.  Values must be
such that the file can carry them (C08). -/
theorem C63_binary_partial (hm : Made d.version n d) (hn : n < 2 ^ 59) (hr : d.Ready codec)
    (hfr : h0.Fresh) (enc : Enc) (order : List Str) (ho : 41 + 2 * order.length < 2 ^ 64)
    (hh : ∀ p ∈ d.held, p.WellTyped)
    (hv : ∀ ps, d.codePairs codec = .ok ps → ∀ p ∈ ps, BinOk (decide (.r13 ≤ d.version)) p.value) :
    ∃ file p d' d'', d.saveBinary codec = .ok file ∧
      loadBytes codec enc h0 order file = .ok d'' ∧ d''.strip = d'.strip ∧
      d.Restored h0 p ∧ p.Completed d' := by
  obtain ⟨h1, h2, -⟩ := C63_ready hm hn hr
  exact C48_binary_partial hfr enc order ho h1 h2 hh hv

/-- C63 for one entity: it is added, anything else is done, and under the handle it was given it is
found in the drawing that is loaded, if the version has it and it has not been removed, changed or
normalized. -/
theorem C63_entity_partial {d0 d1 : Drawing Img} {e e' : Entity} (ha : d0.addEntity e = .ok (e', d1))
    (hk : e' ∈ d.entities) (hs : (DrawingItem.entity e').Filed d.version)
    (hm : Made d.version n d) (hn : n < 2 ^ 59) (hr : d.Ready codec)
    (hw : d.writeHandles = true) (hfr : h0.Fresh) (order : List Str)
    (ho : 41 + 2 * order.length < 2 ^ 64) :
    ∃ ps d' y, d.codePairs codec = .ok ps ∧ load codec h0 order (toStream ps) = (.ok d', []) ∧
      e'.toFlat = (e.setHandle d0.next).toFlat ∧ d'.itemByHandle d0.next = some y ∧
      (DrawingItem.entity e').Restored d.version y := by
  obtain ⟨ps, d', h1, h2, h3, -⟩ := C63_lookup_partial hm hn hr hw hfr order ho
  obtain ⟨hf, -⟩ := C60_entity ha
  have hh : e'.handle = d0.next := handle_of_flat hf
  obtain ⟨y, hy, hx⟩ := h3 e'.handle (.entity e') ((itemByHandle_iff (C63_ready hm hn hr).2.2.1 _
    _).mpr ⟨hk, rfl⟩) hs
  exact ⟨ps, d', y, h1, h2, hf, hh ▸ hy, hx⟩

/-- A line and a block with a line in it are added to a new drawing, the layer of the first line is
changed, the drawing is normalized and the header is replaced, with another version. -/
example (codec : ImageCodec Unit) : ∃ (d : Drawing Unit) (n : Nat), Made d.version n d ∧ n < 2 ^ 59 ∧
    d.Ready codec ∧ d.writeHandles = true ∧ d.blocks ≠ [] ∧
    ∃ e ∈ d.entities, e.layer = str!"WALLS" ∧ (DrawingItem.entity e).Filed d.version := by
  let l : Entity := ⟨⟨.line, 0, Entry.dflt _⟩, Extra.dflt⟩
  have hl : l.Fair .r2010 := ⟨rfl, fun h => (by cases h.1), nofun, fun _ h => (by cases h)⟩
  obtain ⟨d0, h0⟩ := new_ok (Img := Unit) (h0 := Rec.dflt _) (fun _ _ => rfl) [] (by decide)
  have m0 : Made .r2010 41 d0 := .new (fun _ _ => rfl) h0
  obtain ⟨k1, k2, k3, -⟩ := m0.known (by decide)
  obtain ⟨d1, h1, -⟩ := step_ok (d := d0) (op := .addEntity l) (by
    change _ + 18 < _
    omega)
  have m1 : Made .r2010 (41 + 18) d1 := .op (op := .addEntity l) m0 hl h1
  obtain ⟨k1, k2, k3, -⟩ := m1.known (by decide)
  obtain ⟨d2, h2, -⟩ := step_ok (d := d1) (op := .addBlock { Block.dflt with entities := [l] }) (by
    change _ + 10 < _
    omega)
  have m2 : Made .r2010 (41 + 18 + 10) d2 := 
    .op (op := .addBlock { Block.dflt with entities := [l] }) m1 ⟨nofun, fun _ => nofun, fun e he => by
    rw [List.mem_singleton.mp he]
    exact hl⟩ h2
  obtain ⟨k1, k2, k3, -⟩ := m2.known (by decide)
  let f : Entity → Entity := fun e =>
    { e with entry := { e.entry with fields := e.entry.fields.set 3 str!"WALLS" } }
  let d3 : Drawing Unit := { d2 with entities := d2.entities.map f }
  have c3 : Changed .r2010 d2 d3 := {
    header := rfl
    classes := rfl
    thumbnail := rfl
    tables := fun t => List.forall₂_same.mpr fun x hx => ⟨rfl, k1.tables t x hx⟩
    blocks := List.forall₂_same.mpr fun x hx => ⟨rfl, k1.blocks x hx, rfl⟩
    entities := by
      refine List.forall₂_map_right_iff.mpr (List.forall₂_same.mpr fun x hx => ⟨?_, k1.entities x hx⟩)
      obtain ⟨⟨k, b, ⟨r, g, a⟩⟩, ex⟩ := x
      exact Rec.set_ne (ds := k.decls) (i := 3) (j := 0) r str!"WALLS" (by decide)
    objects := List.forall₂_same.mpr fun x hx => ⟨rfl, k1.objects x hx⟩ }
  have m3 := Made.change m2 c3
  have hd3 : d3.details ≤ 69 := by
    have e : d3.details = d2.details := by
      unfold details
      change ((d2.entities.map f).map _).sum + _ = _
      rw [List.map_map]
      rfl
    have := (m2.known (by decide)).2.2.2.1
    omega
  obtain ⟨k1, k2, k3, -⟩ := m3.known (by omega)
  obtain ⟨d4, h4, -⟩ := step_ok (d := d3) (op := .normalize []) (by
    change _ + 40 < _
    omega)
  have m4 : Made .r2010 (69 + d3.details + 40) d4 := .op (op := .normalize []) m3 trivial h4
  let h : Header := Rec.set (Rec.set (Rec.dflt Header.decls) 0 (.r2010 : Version)) 141 (d4.header 141)
  have m5 := Made.thumbnail (img := none) (Made.classes (cs := []) (Made.header (h := h) m4 rfl))
  -- what is in it
  obtain ⟨e', ha⟩ := map_snd h1
  obtain ⟨f1, -, f2, -⟩ := C60_entity ha
  obtain ⟨b', hb⟩ := map_snd h2
  obtain ⟨-, -, g1, g2, -⟩ := C60_block hb
  obtain ⟨d5, d6, n1, n2, rfl, -⟩ := normalize_ok h4
  have e5 : d6.sorted.entities = (d2.entities.map f).map Entity.normalize :=
    n2.entities.trans n1.entities
  have b5 : d6.sorted.blocks = d2.blocks.map Block.normalize := n2.blocks.trans n1.blocks
  have hdt : Date.ofDouble (Date.asDouble (Rec.dflt Header.decls 122 : Date)) = .ok 1000000000 := by
    decide +kernel
  refine ⟨{ d6.sorted with
    header := h
    classes := []
    thumbnail := none }, 69 + d3.details + 40, m5, by omega, ?_, rfl, ?_, (f e').normalize, ?_, ?_, ?_⟩
  · exact {
      version := (by decide : Version.r2010 ≠ .r11)
      dates := ⟨⟨_, hdt⟩, ⟨_, hdt⟩, ⟨_, hdt⟩, ⟨_, hdt⟩⟩
      classNames := fun _ => nofun
      classCounts := fun _ => nofun
      thumbnail := fun _ => nofun }
  · change d6.sorted.blocks ≠ []
    rw [b5, g1]
    simp
  · change _ ∈ d6.sorted.entities
    rw [e5, g2, f2]
    simp
  · rfl
  · obtain ⟨fl, x⟩ := e'
    cases f1
    exact (rfl : EName.line.supported .r2010 = true)

end Dxf
