import Verif.Lemmas.Lookup
import Verif.Props.Reload

/-! Handles when a drawing is saved and loaded: C53. -/

namespace Dxf

open Drawing

variable {Img : Type} {codec : ImageCodec Img} {h0 : Header} {d : Drawing Img}

/-- C53: a handle leads to the same item after saving and loading, if the version has the item, and
a handle that had been assigned before leads to no other item.  (Partial: for drawings as in C41 and
C42.) -/
theorem C53_partial (hfr : h0.Fresh) (order : List Str) (ho : 41 + 2 * order.length < 2 ^ 64)
    (hf : d.Faithful codec) (hroom : d.next.toNat + d.demand < 2 ^ 64) (hs : d.Sound)
    (hp : 0#64 < d.next) (hw : d.writeHandles = true) :
    ∃ ps d', d.codePairs codec = .ok ps ∧ load codec h0 order (toStream ps) = (.ok d', []) ∧
      (∀ h x, d.itemByHandle h = some x → x.Filed d.version →
        ∃ y, d'.itemByHandle h = some y ∧ x.Restored d.version y) ∧
      (∀ h y, h < d.next → d'.itemByHandle h = some y →
        ∃ x, d.itemByHandle h = some x ∧ x.Filed d.version ∧ x.Restored d.version y) := by
  obtain ⟨ps, p, d', h1, h2, -, h3, h4, hl⟩ := reload hfr order ho hf hroom
  have hs' : d'.Sound := hl.sound hs (next_restored h3) hp (handles_restored h3)
  have fwd : ∀ h x, d.itemByHandle h = some x → x.Filed d.version →
      ∃ y, d'.itemByHandle h = some y ∧ x.Restored d.version y := by
    intro h x hx hfx
    obtain ⟨hst, rfl⟩ := (itemByHandle_iff hs h x).mp hx
    have hn : x.handle ≠ 0#64 := by
      have := (hs.2 _ (stores_handle hst)).1
      exact fun e => absurd this (by rw [e]; decide)
    obtain ⟨y, hy, e, hxy⟩ := restored_item h3 h4 hw hst hfx hn
    exact ⟨y, (itemByHandle_iff hs' _ y).mpr ⟨hy, e⟩, hxy⟩
  refine ⟨ps, d', h1, h2, fwd, fun h y hlt hy => ?_⟩
  obtain ⟨hst, rfl⟩ := (itemByHandle_iff hs' h y).mp hy
  have hm := hl.old (stores_handle hst) (by rw [next_restored h3]; exact hlt)
  obtain ⟨x, hx, e, hfx⟩ := filed_item h3 hm
  have hx' := (itemByHandle_iff hs _ x).mpr ⟨hx, e⟩
  obtain ⟨y', hy', hxy⟩ := fwd _ x hx' hfx
  rw [hy] at hy'
  cases hy'
  exact ⟨x, hx', hfx, hxy⟩

/-- C53 for owners: the owner of an item is the same one after saving and loading. -/
theorem C53_owner_partial (hfr : h0.Fresh) (order : List Str) (ho : 41 + 2 * order.length < 2 ^ 64)
    (hf : d.Faithful codec) (hroom : d.next.toNat + d.demand < 2 ^ 64) (hs : d.Sound)
    (hp : 0#64 < d.next) (hw : d.writeHandles = true) {x o : DrawingItem} (hx : d.Stores x)
    (hfx : x.Filed d.version) (hk : x.KeepsOwner d.version)
    (hx' : d.itemByHandle x.ownerHandle = some o) (hfo : o.Filed d.version) :
    ∃ ps d', d.codePairs codec = .ok ps ∧ load codec h0 order (toStream ps) = (.ok d', []) ∧
      ∃ y o', d'.itemByHandle x.handle = some y ∧ x.Restored d.version y ∧
        d'.itemByHandle y.ownerHandle = some o' ∧ o.Restored d.version o' := by
  obtain ⟨ps, d', h1, h2, fwd, -⟩ := C53_partial hfr order ho hf hroom hs hp hw
  obtain ⟨y, hy, hxy⟩ := fwd _ x ((itemByHandle_iff hs _ x).mpr ⟨hx, rfl⟩) hfx
  obtain ⟨o', ho', hoo⟩ := fwd _ o hx' hfo
  obtain ⟨hst, e⟩ := (itemByHandle_iff hs _ o).mp hx'
  have hn : x.ownerHandle ≠ 0#64 := by
    have := (hs.2 _ (stores_handle hst)).1
    rw [e] at this
    exact fun e => absurd this (by rw [e]; decide)
  exact ⟨ps, d', h1, h2, y, o', hy, hxy, by rw [DrawingItem.owner_back hfx hk hxy hn]; exact ho', hoo⟩

/-- C53 fails for the blocks of R12, even if handles are written: after loading, the handle of the
block leads to nothing, although entities that name it as their owner still do. -/
theorem C53_blocks (hfr : h0.Fresh) (order : List Str) (ho : 41 + 2 * order.length < 2 ^ 64)
    (hf : d.Faithful codec) (hroom : d.next.toNat + d.demand < 2 ^ 64) (hs : d.Sound)
    (hp : 0#64 < d.next) (hw : d.writeHandles = true) (hv : ¬ .r13 ≤ d.version) {b : Block}
    (hb : b ∈ d.blocks) :
    ∃ ps d', d.codePairs codec = .ok ps ∧ load codec h0 order (toStream ps) = (.ok d', []) ∧
      d'.blocks.length = d.blocks.length ∧ d.itemByHandle b.handle = some (.block b) ∧
      d'.itemByHandle b.handle = none := by
  obtain ⟨ps, d', h1, h2, -, bwd⟩ := C53_partial hfr order ho hf hroom hs hp hw
  obtain ⟨ps', p, d'', k1, k2, k3, k4⟩ := C42_partial hfr order ho hf hroom
  rw [h1] at k1
  cases k1
  rw [h2] at k2
  cases k2
  have hst : d.Stores (.block b) := hb
  have hi := (itemByHandle_iff hs b.handle (.block b)).mpr ⟨hst, rfl⟩
  refine ⟨ps, d', h1, h2, (k4.blocks.length_eq.symm.trans k3.blocks.length_eq.symm), hi, ?_⟩
  cases hy : d'.itemByHandle b.handle with
  | none => rfl
  | some y =>
    obtain ⟨x, hx, hfx, -⟩ := bwd _ y (hs.2 _ (stores_handle hst)).2 hy
    replace hx := hi.symm.trans hx
    cases hx
    exact absurd hfx hv

/-! ### The hypotheses can be met -/

/-- The drawing of C42 with the layer as the owner of the style. -/
def ownedDrawing : Drawing Unit := { sampleDrawing with
  objects := [⟨.mLineStyle, ⟨Rec.set (Rec.set (Rec.set (Rec.dflt _) 2 str!"S") 0 (9#64 : Handle)) 1
    (5#64 : Handle), [], []⟩, {}⟩] }

theorem ownedDrawing_faithful (codec : ImageCodec Unit) : ownedDrawing.Faithful codec :=
  { sampleDrawing_faithful codec with
    objects := by
      intro _ o ho
      obtain rfl := List.mem_singleton.mp ho
      exact ⟨trivial, fun g hg => (by cases hg)⟩ }

theorem sampleHandles : ∀ h ∈ [5#64, 6#64, 7#64, 8#64, 9#64], 0#64 < h ∧ h < 0x100#64 := by
  intro h hm
  simp only [List.mem_cons, List.not_mem_nil, or_false] at hm
  rcases hm with rfl | rfl | rfl | rfl | rfl <;> decide

example (codec : ImageCodec Unit) : ownedDrawing.Faithful codec ∧
    ownedDrawing.next.toNat + ownedDrawing.demand < 2 ^ 64 ∧ ownedDrawing.Sound ∧
    0#64 < ownedDrawing.next ∧ ownedDrawing.writeHandles = true ∧
    ∃ x o, ownedDrawing.Stores x ∧ x.Filed ownedDrawing.version ∧
      x.KeepsOwner ownedDrawing.version ∧ ownedDrawing.itemByHandle x.ownerHandle = some o ∧
      o.Filed ownedDrawing.version := by
  have hn : ownedDrawing.next = 0x100#64 := rfl
  have hd : ownedDrawing.demand = 37 := rfl
  have hh : ownedDrawing.handles = [5#64, 6#64, 7#64, 8#64, 9#64] := rfl
  unfold Sound
  rw [hn, hd, hh]
  refine ⟨ownedDrawing_faithful codec, by decide, ⟨by decide, sampleHandles⟩, by decide, rfl,
    .object _, .table .layer (TName.setHandle .layer (TName.named .layer str!"WALLS") 5#64),
    List.mem_cons_self, ⟨by decide, rfl⟩, ?_, rfl, fun h => (by cases h)⟩
  change 1 ∉ OName.lost .mLineStyle _
  decide

/-- The drawing of C42 in version R12 with handles. -/
def oldDrawing : Drawing Unit := { sampleDrawing with
  header := Rec.set (Rec.set (Rec.set (Rec.dflt Header.decls) 0 (.r12 : Version)) 141
    (0x100#64 : Handle)) 140 true }

example (codec : ImageCodec Unit) : oldDrawing.Faithful codec ∧
    oldDrawing.next.toNat + oldDrawing.demand < 2 ^ 64 ∧ oldDrawing.Sound ∧
    0#64 < oldDrawing.next ∧ oldDrawing.writeHandles = true ∧ ¬ .r13 ≤ oldDrawing.version ∧
    oldDrawing.blocks ≠ [] := by
  have hn : oldDrawing.next = 0x100#64 := rfl
  have hd : oldDrawing.demand = 37 := rfl
  have hh : oldDrawing.handles = [5#64, 6#64, 7#64, 8#64, 9#64] := rfl
  unfold Sound
  rw [hn, hd, hh]
  refine ⟨?_, by decide, ⟨by decide, sampleHandles⟩, by decide, rfl, by decide,
    by simp [oldDrawing, sampleDrawing]⟩
  have f := sampleDrawing_faithful codec
  exact {
    version := by decide
    dates := f.dates
    classNames := fun _ _ h => (by cases h)
    classCounts := fun _ _ h => (by cases h)
    tables := f.tables
    colors := f.colors
    blocks := fun b hb => ⟨(f.blocks b hb).1, fun h => absurd h (by decide)⟩
    entities := by
      intro e he
      change e ∈ [_, _] at he
      simp only [List.mem_cons, List.not_mem_nil, or_false] at he
      rcases he with rfl | rfl
      · exact ⟨rfl, fun h => (by cases h.1), fun g hg => (by cases hg), fun _ h => (by cases h)⟩
      · exact ⟨rfl, fun h => (by cases h.1), fun g hg => (by cases hg), fun _ h => (by cases h)⟩
    objects := fun h => absurd h (by decide)
    thumbnail := fun _ _ h => (by cases h) }

end Dxf
