import Verif.Lemmas.DxbFile

/-! The DXB format: C33, C47. -/

namespace Dxf

open Drawing

variable {Img : Type} {h0 : Header}

/-! ### C33: saving as DXB and loading -/

/-- C33: a drawing without blocks that is saved as DXB is loaded without an error; what is loaded
has the entities that the format knows, in the same order, each with its layer and colour, and with
its coordinates in single precision.  (Partial: the names of layers have to consist of the
characters U+0001 to U+00FF, see `C33_layer`; drawings with blocks fail, see `C33_blocks`.) -/
theorem C33_partial (hfr : h0.Fresh) (order : List Str) (ho : 41 + 2 * order.length < 2 ^ 64)
    (enc : Enc) (d : Drawing Img) (hb : d.blocks = []) (hl : ∀ e ∈ d.entities, Str.Latin e.layer)
    (hroom : 1 + (d.entities.map fun e => 18 + e.extra.verts.length).sum < 2 ^ 64) :
    ∃ d' : Drawing Img, loadDxbFile enc h0 order d.saveDxb = .ok (some d') ∧ d'.blocks = [] ∧
      List.Forall₂ Entity.WithHandles (d.entities.filterMap Entity.inDxb) d'.entities := by
  obtain ⟨d0, d', -, h2, h3⟩ := Dxb.reload hfr order ho enc d hb hl hroom
  refine ⟨d', h2, h3.blocks, ?_⟩
  obtain ⟨es', h4, h5⟩ := h3.entities
  replace h4 : d'.entities = es' := h4
  rw [h4]
  exact Dxb.forall_withHandles h5

/-- C33: no number of single precision is closer to a coordinate than the one that comes back. -/
theorem C33_nearest {x : F64} (hx : x.isFinite = true) (hs : (F32.single x).isFinite = true)
    (y : F32) : (F32.single x).neg = x.neg ∧
      ndist (F32.single x).units x.units ≤ ndist (F32.unitsOf y.mag * F32.ratio) x.units :=
  F32.single_nearest hx hs y

/-- C33: a coordinate that has come back once comes back unchanged the next time. -/
theorem C33_again (x : F64) : F32.single (F32.single x) = F32.single x := F32.single_single x

/-- C33 fails for drawings with blocks: the base point of the block is written in single precision,
but read as whole numbers.  If it is (0, 0), then the rest of its zeros is read as the end of the
file: of any drawing with entities and blocks there remains one block without entities. -/
theorem C33_blocks (hfr : h0.Fresh) (order : List Str) (ho : 41 + 2 * order.length < 2 ^ 64)
    (enc : Enc) (d : Drawing Img) (hd : d.entities ≠ []) (b : Block) (bs : List Block)
    (hb : d.blocks = b :: bs) (hp : (b.entry.fields 5 : Point) = Point.origin) :
    ∃ (d' : Drawing Img) (b' : Block), loadDxbFile enc h0 order d.saveDxb = .ok (some d') ∧ d'.entities = [] ∧
      d'.blocks = [b'] ∧ b'.entities = [] := by
  obtain ⟨e, es, he⟩ := List.exists_cons_of_ne_nil hd
  obtain ⟨d0, h1⟩ := new_ok (Img := Img) hfr order ho
  have hw : ∃ rest, d.saveDxb = Dxb.sentinel ++ (Dxb.item 132 ++ (byte 0 :: byte 0 :: byte 0 ::
      byte 0 :: byte 0 :: rest)) := by
    unfold saveDxb
    rw [he, hb]
    dsimp only
    rw [hp]
    refine ⟨byte 0 :: byte 0 :: byte 0 :: (Dxb.item 135 ++ Dxb.w 1#16 ++ Dxb.item 136 ++
      Dxb.w 0#16 ++ (b.entities.flatMap Dxb.entity ++ [byte 0])), ?_⟩
    have : Dxb.xy Point.origin = [byte 0, byte 0, byte 0, byte 0, byte 0, byte 0, byte 0, byte 0] := by
      decide +kernel
    rw [this]
    simp only [List.append_assoc, List.cons_append, List.nil_append]
  obtain ⟨rest, hw⟩ := hw
  have hi : ∃ p s, Dxb.items (Dxb.reader ([byte 0x1A, byte 0] ++ (Dxb.item 132 ++ (byte 0 ::
      byte 0 :: byte 0 :: byte 0 :: byte 0 :: rest)))) = .ok (⟨some p, []⟩, s) := by
    rw [Dxb.items_start]
    exact ⟨_, _, rfl⟩
  obtain ⟨p, s, hi⟩ := hi
  obtain ⟨⟨b', d'⟩, h6, -⟩ := affords_block d0.clear (dxbBlock p []) 0 (by
    unfold Room
    rw [Dxb.clear_next]
    change 1 + (5 + 5 * 0 + 0) < 2 ^ 64
    decide)
  have h7 : d'.entities = [] ∧ d'.blocks = [b'] ∧ b'.entities = [] := by
    obtain ⟨⟨hd, d1⟩, h8, h9⟩ := bind_ok h6
    obtain ⟨-, h11, -, h12, -⟩ := addBlockNoHandle_more h9
    obtain ⟨-, -, -, -, -, -, -, -, -, hf, -⟩ := addBlockNoHandle_ok h9
    obtain ⟨-, rfl, -⟩ := nextHandle_ok h8
    refine ⟨h11, h12, ?_⟩
    exact List.forall₂_nil_left_iff.mp hf
  refine ⟨d', b', ?_, h7⟩
  rw [loadDxbFile, hw, Dxb.sentinel_line]
  dsimp only
  rw [if_pos rfl, loadDxb, hi]
  simp only [bind, Except.bind]
  rw [show Dxb.collect (([] : List Flat).length + 1) [] = .ok [] from rfl]
  simp only [bind, Except.bind]
  rw [h1]
  simp only [bind, Except.bind]
  rw [h6]
  rfl

/-- C33 fails for arcs in polylines: the bulge and the widths of vertices are not written, so that
two polylines that differ in them give the same file. -/
theorem C33_bulge (d : Drawing Img) (i : Nat) (x : Entry EName.polyline.decls) (y : Extra)
    (bulge start stop : F64) :
    ({ d with entities := [⟨⟨.polyline, i, x⟩, { y with
      verts := y.verts.map fun v => { v with
        fields := ((v.fields.set 21 bulge).set 19 start).set 20 stop } }⟩] } : Drawing Img).saveDxb =
    ({ d with entities := [⟨⟨.polyline, i, x⟩, y⟩] } : Drawing Img).saveDxb := by
  have hv : ∀ vs : List Vert, (vs.map fun v : Vert => { v with
      fields := ((v.fields.set 21 bulge).set 19 start).set 20 stop }).flatMap
      (fun v => Dxb.vertex v.fields) = vs.flatMap fun v => Dxb.vertex v.fields := by
    intro vs
    rw [List.flatMap_map]
    refine List.flatMap_congr fun v _ => ?_
    rfl
  unfold saveDxb
  cases d.blocks with
  | cons b bs => rfl
  | nil =>
    have : Dxb.entity ⟨⟨.polyline, i, x⟩, { y with
        verts := y.verts.map fun v => { v with
          fields := ((v.fields.set 21 bulge).set 19 start).set 20 stop } }⟩ =
        Dxb.entity ⟨⟨.polyline, i, x⟩, y⟩ := by
      unfold Dxb.entity
      dsimp only
      rw [hv]
    have h2 : ∀ e e' : Entity, e.layer = e'.layer → Dxb.color e = Dxb.color e' →
        Dxb.entity e = Dxb.entity e' →
        Dxb.entities none 0#16 [e] = Dxb.entities none 0#16 [e'] := by
      intro e e' h1 h2 h3
      unfold Dxb.entities
      rw [h1, h2, h3]
    exact congrArg (fun l => Dxb.sentinel ++ (Dxb.item 135 ++ Dxb.w 1#16 ++ Dxb.item 136 ++
      Dxb.w 0#16) ++ l ++ [byte 0]) (h2 _ _ rfl rfl this)

/-- C33 fails for layers with other names, of whose characters the last byte is written: the one of
U+0100 is read as the end of the name, and the end of the name as the end of the file. -/
theorem C33_layer (hfr : h0.Fresh) (order : List Str) (ho : 41 + 2 * order.length < 2 ^ 64)
    (enc : Enc) (d : Drawing Img) (hb : d.blocks = []) (e : Entity) (es : List Entity)
    (he : d.entities = e :: es) (hl : e.layer = str!"Ā") :
    ∃ d' : Drawing Img, loadDxbFile enc h0 order d.saveDxb = .ok (some d') ∧ d'.entities = [] := by
  obtain ⟨d0, h1⟩ := new_ok (Img := Img) hfr order ho
  have hw : ∃ rest, d.saveDxb = Dxb.sentinel ++ (byte 135 :: byte 1 :: byte 0 :: byte 136 ::
      byte 0 :: byte 0 :: byte 129 :: byte 0 :: byte 0 :: rest) := by
    unfold saveDxb
    rw [he, hb]
    dsimp only
    unfold Dxb.entities
    rw [if_neg (fun h => nomatch h), hl]
    refine ⟨(if Dxb.color e = 0#16 then [] else Dxb.item 136 ++ Dxb.w (Dxb.color e)) ++
      (Dxb.entity e ++ Dxb.entities (some str!"Ā") (Dxb.color e) es) ++ [byte 0], ?_⟩
    simp only [List.append_assoc]
    rfl
  obtain ⟨rest, hw⟩ := hw
  have l1 := Dxb.loops_mode (s := Dxb.reader []) rfl ⟨none, []⟩
  have l2 := l1.trans (Dxb.loops_color rfl 0#16 ⟨none, []⟩)
  obtain ⟨s1, -, l3⟩ := Dxb.loops_layer (l := str!"0") (c := 0#16)
    (s := { Dxb.reader [] with isIntegerMode := false, currentColor := 0#16 })
    ⟨rfl, rfl, rfl, rfl⟩ [] (fun _ h => nomatch h) ⟨none, []⟩
  obtain ⟨s, hi⟩ := Dxb.items_of_loops (l2.trans l3) rest
  replace hi : Dxb.items (Dxb.reader ([byte 0x1A, byte 0] ++ (byte 135 :: byte 1 :: byte 0 ::
      byte 136 :: byte 0 :: byte 0 :: byte 129 :: byte 0 :: byte 0 :: rest))) =
      .ok (⟨none, []⟩, s) := hi
  refine ⟨d0.clear, ?_, rfl⟩
  rw [loadDxbFile, hw, Dxb.sentinel_line]
  dsimp only
  rw [if_pos rfl, loadDxb, hi]
  simp only [bind, Except.bind]
  rw [show Dxb.collect (([] : List Flat).length + 1) [] = .ok [] from rfl]
  simp only [bind, Except.bind]
  rw [h1]
  rfl

/-! ### C47: loading any DXB file -/

/-- C47: whatever follows the first line of a DXB file, loading gives a drawing in which no handle
occurs twice, or an error, but does not panic and does end. -/
theorem C47 (hfr : h0.Fresh) (order : List Str) (ho : 41 + 2 * order.length < 2 ^ 64)
    (enc : Enc) (file : List Byte) (hb : file.length < 2 ^ 58) :
    match (loadDxbFile enc h0 order file : Except DxfErr (Option (Drawing Img))) with
    | .ok (some d) => d.Sound
    | .ok none => True
    | .error e => e ≠ .panic ∧ e ≠ .outOfFuel := by
  have hl := readLine_length_le true enc file
  unfold loadDxbFile
  rcases hr : readLine true enc file with ⟨e | l, rest⟩
  · have : e = .malformedString := by
      unfold readLine at hr
      dsimp only at hr
      split at hr
      · cases hr
      · cases hr
        rfl
    rw [this]
    exact ⟨fun h => (nomatch h), fun h => (nomatch h)⟩
  · rw [hr] at hl
    replace hl : rest.length ≤ file.length := hl
    dsimp only
    by_cases hs : l = str!"AutoCAD DXB 1.0"
    · rw [if_pos hs]
      have h := Dxb.load_tame (Img := Img) hfr order ho rest [] (by
        rw [List.flatten_nil, List.length_nil]
        omega)
      cases hd : (loadDxb h0 order rest : Except DxfErr (Drawing Img)) with
      | ok d =>
        rw [hd] at h
        exact h
      | error e =>
        rw [hd] at h
        exact ⟨fun he => h (.inl he), fun he => h (.inr he)⟩
    · rw [if_neg hs]
      trivial

/-! ### Instances of the hypotheses -/

/-- A drawing with a line and a polyline on different layers. -/
def dxbDrawing : Drawing Unit where
  header := Rec.dflt _
  classes := []
  tables := fun _ => []
  blocks := []
  entities := [
    ⟨⟨.line, 0, ⟨Rec.set (Dxb.newLine .origin ⟨.unit, .zero, .zero⟩) 3 str!"A", [], []⟩⟩, Extra.dflt⟩,
    ⟨⟨.polyline, 0, ⟨Dxb.newPolyline true, [], []⟩⟩, { Extra.dflt with
      verts := [⟨Dxb.newVertex .origin, 0#64⟩, ⟨Dxb.newVertex ⟨.unit, .zero, .zero⟩, 0#64⟩] }⟩]
  objects := []
  thumbnail := none

example : dxbDrawing.blocks = [] ∧ (∀ e ∈ dxbDrawing.entities, Str.Latin e.layer) ∧
    1 + (dxbDrawing.entities.map fun e => 18 + e.extra.verts.length).sum < 2 ^ 64 := by
  refine ⟨rfl, fun e he => ?_, by decide⟩
  change e ∈ [_, _] at he
  simp only [List.mem_cons, List.not_mem_nil, or_false] at he
  rcases he with rfl | rfl
  · intro c hc
    replace hc : c ∈ str!"A" := hc
    revert c
    decide
  · intro c hc
    replace hc : c ∈ str!"0" := hc
    revert c
    decide

/-- What is loaded of it, apart from handles. -/
example : dxbDrawing.entities.filterMap Entity.inDxb ≠ [] ∧
    (dxbDrawing.entities.filterMap Entity.inDxb).length = 2 := ⟨fun h => (nomatch h), rfl⟩

/-- Numbers that are rounded: 0.1 has no exact representation in single precision. -/
example : (F64.mk 0x3FB999999999999A#64).isFinite = true ∧
    F32.single ⟨0x3FB999999999999A#64⟩ = ⟨0x3FB99999A0000000#64⟩ := by decide +kernel

/-- A drawing with an entity and a block. -/
example : ∃ (d : Drawing Unit) (b : Block), d.entities ≠ [] ∧ d.blocks = [b] ∧
    (b.entry.fields 5 : Point) = Point.origin ∧ b.entities ≠ [] :=
  ⟨{ dxbDrawing with blocks := [⟨⟨Rec.dflt _, [], []⟩, dxbDrawing.entities⟩] }, _,
    fun h => (nomatch h), rfl, rfl, fun h => (nomatch h)⟩

/-- A file that is loaded, and one that is refused. -/
example : (∃ d : Drawing Unit, loadDxbFile .utf8 (Rec.dflt _) [] (Dxb.sentinel ++ [byte 0]) =
      .ok (some d)) ∧
    (∃ e, (loadDxbFile .utf8 (Rec.dflt _) [] (Dxb.sentinel ++ [byte 99]) :
      Except DxfErr (Option (Drawing Unit))) = .error e) := by
  rw [loadDxbFile, Dxb.sentinel_line, loadDxbFile, Dxb.sentinel_line]
  obtain ⟨d0, h⟩ := new_ok (Img := Unit) (h0 := Rec.dflt Header.decls) (fun _ _ => rfl) [] (by decide)
  dsimp only
  rw [if_pos rfl, if_pos rfl]
  refine ⟨⟨d0.clear, ?_⟩, ⟨_, rfl⟩⟩
  rw [loadDxb, show Dxb.items (Dxb.reader ([byte 0x1A, byte 0] ++ [byte 0])) = .ok (⟨none, []⟩, _)
    from rfl]
  simp only [bind, Except.bind]
  rw [show Dxb.collect (([] : List Flat).length + 1) [] = .ok [] from rfl]
  simp only [bind, Except.bind]
  rw [h]
  rfl

end Dxf
