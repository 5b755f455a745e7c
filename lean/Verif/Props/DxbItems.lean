import Verif.Lemmas.DxbItems

/-! The meaning of the items of DXB files: C50. -/

namespace Dxf

open Drawing

variable {Img : Type} {h0 : Header} {m : DxbMode} {f : F64}

/-- What is loaded of any file of items whose names consist of the characters U+0001 to U+00FF: the
entities that the items stand for, after all words in them have been multiplied by the scale
factor. -/
theorem C50_scaled (hfr : h0.Fresh) (order : List Str) (ho : 41 + 2 * order.length < 2 ^ 64)
    (enc : Enc) (items : List DxbItem) (hn : ∀ i ∈ items, i.Named)
    (hroom : 19 * (dxbFile m f items).length < 2 ^ 64) :
    ∃ d' : Drawing Img, loadDxbFile enc h0 order (dxbFile m f items) = .ok (some d') ∧
      d'.blocks = [] ∧ List.Forall₂ Entity.WithHandles
        (DxbItem.entities m f .start (items.map (DxbItem.scaled f))) d'.entities := by
  obtain ⟨d0, d', -, h2, h3⟩ := Dxb.load_items (Img := Img) (m := m) (f := f) hfr order ho enc items
    (Dxb.loops_start _) hn (by
      have hl : (items.flatMap (DxbItem.bytes m)).length + 1 ≤ (dxbFile m f items).length := by
        unfold dxbFile
        simp only [List.length_append, List.length_singleton]
        omega
      omega)
  refine ⟨d', h2, h3.blocks, ?_⟩
  obtain ⟨es', h4, h5⟩ := h3.entities
  replace h4 : d'.entities = es' := h4
  rw [h4]
  exact Dxb.all_withHandles h5

/-- C50: loading a DXB file makes the entities that its items stand for, in the same order: with the
layer and colour in force, with lines and traces that go on where the last one ended, and with the
bulges and widths of vertices; numbers are floats, or whole numbers times the scale factor.
(Partial: the scale factor must not change the colours and flags, see `C50_violated`; names consist
of the characters U+0001 to U+00FF; vertices are those of polylines.) -/
theorem C50_partial (hfr : h0.Fresh) (order : List Str) (ho : 41 + 2 * order.length < 2 ^ 64)
    (enc : Enc) (items : List DxbItem) (hn : ∀ i ∈ items, i.Named)
    (hs : ∀ i ∈ items, i.scaled f = i) (hroom : 19 * (dxbFile m f items).length < 2 ^ 64) :
    ∃ d' : Drawing Img, loadDxbFile enc h0 order (dxbFile m f items) = .ok (some d') ∧
      d'.blocks = [] ∧ List.Forall₂ Entity.WithHandles (DxbItem.entities m f .start items)
        d'.entities := by
  have := C50_scaled (Img := Img) hfr order ho enc items hn hroom
  rw [List.map_congr_left (g := id) (fun i hi => hs i hi), List.map_id] at this
  exact this

/-- The scale factor 1 changes no item. -/
theorem C50_unit (i : DxbItem) : i.scaled .unit = i := by
  have hw : ∀ w : I16, scaledWord .unit w = w.signExtend 32 := by
    intro w
    unfold scaledWord
    rw [Dxb.toIntSat_mul_unit _ (by have := BitVec.toInt_lt (x := w); have := BitVec.le_toInt w; omega)]
    rfl
  cases i
  case color c =>
    rw [DxbItem.scaled, hw, Dxb.narrow_word]
  case polyline closed vs =>
    rw [DxbItem.scaled, hw]
    cases closed
    · rfl
    · rfl
  all_goals rfl

/-- C50: the same for a file with a base point: the entities are those of a block. -/
theorem C50_block (hfr : h0.Fresh) (order : List Str) (ho : 41 + 2 * order.length < 2 ^ 64)
    (enc : Enc) (p : DxbXy) (items : List DxbItem) (hn : ∀ i ∈ items, i.Named)
    (hs : ∀ i ∈ items, i.scaled f = i) (hroom : 5 * items.length + 6 < 2 ^ 64) :
    ∃ (d' : Drawing Img) (b : Block),
      loadDxbFile enc h0 order (dxbBlockFile m f p items) = .ok (some d') ∧
      d'.entities = [] ∧ d'.blocks = [b] ∧ (b.entry.fields 5 : Point) = p.point m f ∧
      List.Forall₂ Entity.WithHandles (DxbItem.entities m f .start items) b.entities := by
  obtain ⟨d', b, hd, h1, h2, h3, h4, h5⟩ :=
    Dxb.load_block (Img := Img) (m := m) (f := f) hfr order ho enc p items hn hroom
  rw [List.map_congr_left (g := id) (fun i hi => hs i hi), List.map_id] at h5
  refine ⟨d', b, h1, h2, h3, ?_, Dxb.all_withHandles ?_⟩
  · rw [h4]
    rfl
  · refine Dxb.forall2_imp_mem (fun x y hx hxy => ?_) h5
    obtain ⟨hd, rfl⟩ := hxy
    unfold Entity.Handled
    rw [if_pos (Dxb.allLoaded_handle hx)]
    exact ⟨hd, rfl, rfl⟩

/-- The number 1/2. -/
def halfScale : F64 := ⟨0x3FE0000000000000#64⟩

/-- C50 fails for colours: they are multiplied by the scale factor like coordinates
(src/dxb_reader.rs:323-327), so that with the factor 1/2 colour 5 is read as colour 2. -/
theorem C50_violated (hfr : h0.Fresh) (order : List Str) (ho : 41 + 2 * order.length < 2 ^ 64)
    (enc : Enc) (p : DxbXy) :
    ∃ d' : Drawing Img,
      loadDxbFile enc h0 order (dxbFile m halfScale [.color 5, .point p]) = .ok (some d') ∧
      (DxbItem.entities m halfScale .start [.color 5, .point p]).map Dxb.color = [5#16] ∧
      d'.entities.map Dxb.color = [2#16] := by
  obtain ⟨d', h1, -, h3⟩ := C50_scaled (Img := Img) (m := m) (f := halfScale) hfr order ho enc
    [.color 5, .point p] (by simp [DxbItem.Named]) (by
      cases m <;> simp [dxbFile, DxbMode.choose, DxbItem.bytes, DxbXy.bytes, DxbMode.n,
        leBytes_length, Dxb.sentinel, Dxb.string])
  refine ⟨d', h1, rfl, ?_⟩
  have e : (scaledWord halfScale 5).setWidth 16 = 2#16 := by decide +kernel
  replace h3 : List.Forall₂ Entity.WithHandles
    [DxbPen.entity ⟨str!"0", (scaledWord halfScale 5).setWidth 16, .origin, (.origin, .origin)⟩
      .modelPoint (Dxb.newPoint (p.point m halfScale))] d'.entities := h3
  rw [e] at h3
  obtain ⟨y, l, ⟨hd, hy, -⟩, hl, hd'⟩ := List.forall₂_cons_left_iff.mp h3
  rw [List.forall₂_nil_left_iff.mp hl] at hd'
  rw [hd']
  obtain ⟨y1, y2⟩ := y
  replace hy : y1 = _ := hy
  subst hy
  rfl

/-- C50 fails for flags, too: with the factor 1/2 a closed polyline is read as an open one. -/
theorem C50_open (hfr : h0.Fresh) (order : List Str) (ho : 41 + 2 * order.length < 2 ^ 64)
    (enc : Enc) :
    ∃ d' : Drawing Img,
      loadDxbFile enc h0 order (dxbFile m halfScale [.polyline true []]) = .ok (some d') ∧
      List.Forall₂ Entity.WithHandles
        (DxbItem.entities m halfScale .start [.polyline false []]) d'.entities := by
  obtain ⟨d', h1, -, h3⟩ := C50_scaled (Img := Img) (m := m) (f := halfScale) hfr order ho enc
    [.polyline true []] (by simp [DxbItem.Named]) (by
      cases m <;> simp [dxbFile, DxbMode.choose, DxbItem.bytes,
        leBytes_length, Dxb.sentinel, Dxb.string])
  refine ⟨d', h1, ?_⟩
  have e : (scaledWord halfScale 1#16 != 0#32) = false := by decide +kernel
  rw [List.map_singleton, DxbItem.scaled, if_pos rfl, e] at h3
  exact h3

/-- C50 fails for the mode: when it follows the factor 1/2, the item that chooses floats is without
effect, and all coordinates are read as whole numbers. -/
theorem C50_mode (hfr : h0.Fresh) (order : List Str) (ho : 41 + 2 * order.length < 2 ^ 64)
    (enc : Enc) (items : List DxbItem) (hn : ∀ i ∈ items, i.Named)
    (hroom : 19 * (dxbFile .whole halfScale items).length < 2 ^ 64) :
    ∃ d' : Drawing Img, loadDxbFile enc h0 order (Dxb.sentinel ++
        ((byte 128 :: leBytes 8 halfScale.bits.toNat) ++ DxbMode.float.choose ++
          items.flatMap (DxbItem.bytes .whole) ++ [byte 0])) = .ok (some d') ∧
      List.Forall₂ Entity.WithHandles (DxbItem.entities .whole halfScale .start
        (items.map (DxbItem.scaled halfScale))) d'.entities := by
  have e : (scaledWord halfScale 1#16 == 0#32) = true := by decide +kernel
  have hm := Dxb.loops_mode' (m := .whole) (f := halfScale) (pen := .start) .whole 1#16 e ⟨none, []⟩
  obtain ⟨d0, d', -, h2, h3⟩ := Dxb.load_items (Img := Img) (m := .whole) (f := halfScale) hfr order
    ho enc items ((Dxb.loops_start (m := .whole) ⟨none, []⟩).trans hm) hn (by
      have hl : (items.flatMap (DxbItem.bytes .whole)).length + 1 ≤
          (dxbFile .whole halfScale items).length := by
        unfold dxbFile
        simp only [List.length_append, List.length_singleton]
        omega
      omega)
  refine ⟨d', h2, ?_⟩
  obtain ⟨es', h4, h5⟩ := h3.entities
  replace h4 : d'.entities = es' := h4
  rw [h4]
  exact Dxb.all_withHandles h5

/-- C50: a bulge or widths that do not follow a vertex are refused, whatever comes before and
after. -/
theorem C50_stray (order : List Str) (enc : Enc) (items : List DxbItem)
    (hn : ∀ i ∈ items, i.Named) (t : DxbTrait) (rest : List Byte) :
    ∃ e, (loadDxbFile enc h0 order (Dxb.sentinel ++ (m.choose ++
        (byte 128 :: leBytes 8 f.bits.toNat) ++ items.flatMap (DxbItem.bytes m) ++
        (t.bytes m ++ rest))) : Except DxfErr (Option (Drawing Img))) = .error e := by
  obtain ⟨pen', h2⟩ := Dxb.loops_items (m := m) (f := f) (pen := .start) items hn none []
  obtain ⟨e, h⟩ := Dxb.items_fails ((Dxb.loops_start ⟨none, []⟩).trans h2)
    (Dxb.trait_fails (m := m) (f := f) (pen := pen') t _ (fun x hx => by
      rw [List.nil_append] at hx
      exact Dxb.allFlats_last _ x hx)) rest
  refine ⟨e, ?_⟩
  rw [loadDxbFile, Dxb.sentinel_line]
  dsimp only
  rw [if_pos rfl, loadDxb, h]
  rfl

/-! ### Examples -/

/-- Two lines, a trace with its continuation, and a closed polyline with a bulge, on a layer. -/
def sampleItems : List DxbItem :=
  [.layer str!"A", .color 3, .line ⟨1, 2, 3⟩ ⟨4, 5, 6⟩, .lineTo ⟨7, 8⟩,
    .trace ⟨0, 0⟩ ⟨1, 0⟩ ⟨2, 0⟩ ⟨3, 0⟩, .traceTo ⟨4, 0⟩ ⟨5, 0⟩,
    .polyline true [⟨⟨0, 0⟩, [.bulge 1]⟩, ⟨⟨1, 1⟩, [.widths 1 2]⟩]]

example : (∀ i ∈ sampleItems, i.Named) ∧ (∀ i ∈ sampleItems, i.scaled .unit = i) ∧
    19 * (dxbFile .whole .unit sampleItems).length < 2 ^ 64 ∧
    (DxbItem.entities .whole .unit .start sampleItems).length = 5 := by
  refine ⟨?_, fun i _ => C50_unit i, by decide, rfl⟩
  intro i hi
  simp only [sampleItems, List.mem_cons, List.not_mem_nil, or_false] at hi
  rcases hi with rfl | rfl | rfl | rfl | rfl | rfl | rfl <;> first | trivial | skip
  intro c hc
  revert c
  decide

/-- A line goes on where the last one ended, on the layer in force. -/
example (p q : DxbXyz) (r : DxbXy) (l : Str) (pen : DxbPen) :
    DxbItem.entities m f pen [.line p q, .layer l, .lineTo r] =
      [pen.entity .line (Dxb.newLine (p.point m f) (q.point m f)),
        DxbPen.entity { pen with layer := l } .line
          (Dxb.newLine (q.point m f) (r.point m f))] := rfl

end Dxf
