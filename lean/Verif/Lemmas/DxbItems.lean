import Verif.Spec.DxbItems
import Verif.Lemmas.DxbFile

/-! Lemmas about the items of DXB files (C50). -/

namespace Dxf

namespace Dxb

/-- The mode as the reader has it. -/
def isWhole : DxbMode → Bool
  | .float => false
  | .whole => true

/-- The reader when the pen is such. -/
def penReader (m : DxbMode) (f : F64) (pen : DxbPen) : DxbReader where
  bytes := []
  later := []
  isIntegerMode := isWhole m
  layerName := pen.layer
  scaleFactor := f
  currentColor := pen.color
  lastLinePoint := pen.line
  lastTraceP3 := pen.trace.1
  lastTraceP4 := pen.trace.2
  offset := 0

theorem leVal_word {k : Nat} (size : Nat) (hk : 256 ^ k = 2 ^ size) (x : BitVec size) :
    BitVec.ofNat size (leVal (leBytes k x.toNat)) = x := by
  rw [leVal_leBytes, hk, Nat.mod_eq_of_lt x.isLt, BitVec.ofNat_toNat, BitVec.setWidth_eq]

variable {m : DxbMode} {f : F64} {pen : DxbPen}

theorem reads_coord (x : BitVec 32) :
    Reads (m.n x) readN (penReader m f pen) (m.coord f x) (penReader m f pen) := by
  intro rest off
  cases m with
  | float =>
    refine ⟨off + 4, (run_bind (k := fun v => pure (F32.widen (BitVec.ofNat 32 v))) (word_bytes
      (size := 4) (leBytes_length 4 x.toNat) (penReader .float f pen) rest off)).trans ?_⟩
    rw [leVal_word 32 (by norm_num)]
    rfl
  | whole =>
    refine ⟨off + 2, (run_bind (k := fun v => pure ((ofWord 16 v).mul f)) (word_bytes
      (size := 2) (leBytes_length 2 (x.setWidth 16).toNat) (penReader .whole f pen) rest
      off)).trans ?_⟩
    rw [ofWord, leVal_word 16 (by norm_num)]
    rfl

/-- A long word, read depending on the mode and the scale factor. -/
theorem reads_long (g : Bool → F64 → Nat → F64) (x : BitVec 32) (s : DxbReader) :
    Reads (DxbMode.long x) (do
      let s ← get
      let v ← word 4
      return g s.isIntegerMode s.scaleFactor v) s (g s.isIntegerMode s.scaleFactor x.toNat) s := by
  intro rest off
  refine ⟨off + 4, (run_bind (k := fun v => pure (g s.isIntegerMode s.scaleFactor v)) (word_bytes
    (size := 4) (leBytes_length 4 x.toNat) s rest off)).trans ?_⟩
  rw [leVal_leBytes, Nat.mod_eq_of_lt (by have := x.isLt; omega)]
  rfl

theorem reads_angle (x : BitVec 32) :
    Reads (DxbMode.long x) readA (penReader m f pen) (m.angle f x) (penReader m f pen) := by
  have := reads_long (fun b f v => if b then ((ofWord 32 v).mul f).div (.ofInt 1000000)
    else F32.widen (BitVec.ofNat 32 v)) x (penReader m f pen)
  unfold readA
  rw [ofWord, BitVec.ofNat_toNat, BitVec.setWidth_eq] at this
  cases m with
  | float =>
    rw [show (penReader .float f pen).isIntegerMode = false from rfl, if_neg (by decide)] at this
    exact this
  | whole =>
    rw [show (penReader .whole f pen).isIntegerMode = true from rfl, if_pos rfl] at this
    exact this

theorem reads_bulge (x : BitVec 32) :
    Reads (DxbMode.long x) readU (penReader m f pen) (m.bulge f x) (penReader m f pen) := by
  have := reads_long (fun b f v => if b then ((ofWord 32 v).mul (.ofInt 65536)).mul f
    else F32.widen (BitVec.ofNat 32 v)) x (penReader m f pen)
  unfold readU
  rw [ofWord, BitVec.ofNat_toNat, BitVec.setWidth_eq] at this
  cases m with
  | float =>
    rw [show (penReader .float f pen).isIntegerMode = false from rfl, if_neg (by decide)] at this
    exact this
  | whole =>
    rw [show (penReader .whole f pen).isIntegerMode = true from rfl, if_pos rfl] at this
    exact this

theorem reads_word (v : I16) :
    Reads (leBytes 2 v.toNat) readW (penReader m f pen) (scaledWord f v) (penReader m f pen) := by
  intro rest off
  refine ⟨off + 2, (run_bind (k := fun v => pure (BitVec.ofInt 32 (F64.toIntSat (-2 ^ 31)
    (2 ^ 31 - 1) ((ofWord 16 v).mul f)))) (word_bytes (size := 2) (leBytes_length 2 v.toNat)
    (penReader m f pen) rest off)).trans ?_⟩
  rw [ofWord, leVal_word 16 (by norm_num)]
  rfl

theorem reads_plane (p : DxbXy) :
    Reads (p.bytes m) readXy (penReader m f pen) (p.point m f) (penReader m f pen) := by
  have := (reads_coord (m := m) (f := f) (pen := pen) p.x).bind
    (k := fun x => do let y ← readN; pure (⟨x, y, .zero⟩ : Point))
    ((reads_coord p.y).bind (.pure _ _))
  rw [List.append_nil] at this
  exact this

theorem reads_space (p : DxbXyz) :
    Reads (p.bytes m) readXyz (penReader m f pen) (p.point m f) (penReader m f pen) := by
  have := (reads_coord (m := m) (f := f) (pen := pen) p.x).bind
    (k := fun x => do let y ← readN; let z ← readN; pure (⟨x, y, z⟩ : Point))
    ((reads_coord p.y).bind ((reads_coord p.z).bind (.pure _ _)))
  rw [List.append_nil, ← List.append_assoc] at this
  exact this

/-- The entity as the reader has it. -/
def penFlat (pen : DxbPen) (k : EName) (r : Rec k.decls) : Flat :=
  ⟨k, 0, ⟨(r.set 7 (pen.color : I16)).set 3 (pen.layer : Str), [], []⟩⟩

theorem reads_pen (k : EName) (r : Rec k.decls) :
    Reads [] (wrap k r) (penReader m f pen) (penFlat pen k r) (penReader m f pen) :=
  reads_wrap _ k r

/-- The vertex as the reader has it. -/
def vertexFlat (m : DxbMode) (f : F64) (pen : DxbPen) (v : DxbVertex) : Flat :=
  ⟨.vertex, 0, ⟨v.traits.foldl (DxbTrait.apply m f)
    (((newVertex (v.location.point m f)).set 7 (pen.color : I16)).set 3 (pen.layer : Str)), [], []⟩⟩

/-- What is read of an item. -/
def itemFlats (m : DxbMode) (f : F64) (pen : DxbPen) : DxbItem → List Flat
  | .polyline closed vs => penFlat pen .polyline (newPolyline closed) ::
      (vs.map (vertexFlat m f pen) ++ [penFlat pen .seqend (Rec.dflt _)])
  | i => ((i.entity m f pen).map Entity.toFlat).toList

/-- An item that is an entity. -/
theorem loops_pen {i : Nat} {r : DxbM Flat} {bs : List Byte} {pen' : DxbPen} {e : Flat}
    (found : Found) (hi : i < 256) (h0 : i ≠ 0) (hm : readEntity? i = some r)
    (h : Reads bs r (penReader m f pen) e (penReader m f pen')) :
    Loops (byte i :: bs) (penReader m f pen) found (penReader m f pen')
      { found with entities := found.entities ++ [e] } :=
  Loops.entity found hi h0 hm h

theorem reads_update (g : Rec EName.vertex.decls → Rec EName.vertex.decls) (s : DxbReader)
    (base : Option Point) (es : List Flat) (k : Nat) (e : Entry EName.vertex.decls) :
    Reads [] (updateVertex g ⟨base, es ++ [⟨.vertex, k, e⟩]⟩) s
      ⟨base, es ++ [⟨.vertex, k, { e with fields := g e.fields }⟩]⟩ s := by
  intro rest off
  refine ⟨off, ?_⟩
  unfold updateVertex
  rw [run_get]
  dsimp only
  rw [List.getLast?_concat, List.dropLast_concat]
  rfl

theorem loops_trait (t : DxbTrait) (base : Option Point) (es : List Flat) (k : Nat)
    (r : Rec EName.vertex.decls) :
    Loops (t.bytes m) (penReader m f pen) ⟨base, es ++ [⟨.vertex, k, ⟨r, [], []⟩⟩]⟩
      (penReader m f pen) ⟨base, es ++ [⟨.vertex, k, ⟨t.apply m f r, [], []⟩⟩]⟩ := by
  cases t with
  | bulge u =>
    have := (reads_bulge (m := m) (f := f) (pen := pen) u).bind
      (k := fun b => updateVertex (fun r => r.set 21 b) ⟨base, es ++ [⟨.vertex, k, ⟨r, [], []⟩⟩]⟩)
      (reads_update _ _ base es k ⟨r, [], []⟩)
    rw [List.append_nil] at this
    exact Loops.other (i := 133) (by omega) (by omega) rfl rfl this
  | widths a b =>
    have := (reads_coord (m := m) (f := f) (pen := pen) a).bind
      (k := fun a => do
        let b ← readN
        updateVertex (fun r => (r.set 19 a).set 20 b) ⟨base, es ++ [⟨.vertex, k, ⟨r, [], []⟩⟩]⟩)
      ((reads_coord b).bind (reads_update _ _ base es k ⟨r, [], []⟩))
    rw [List.append_nil] at this
    exact Loops.other (i := 134) (by omega) (by omega) rfl rfl this

theorem loops_traits (ts : List DxbTrait) (base : Option Point) (es : List Flat) (k : Nat)
    (r : Rec EName.vertex.decls) :
    Loops (ts.flatMap (DxbTrait.bytes m)) (penReader m f pen)
      ⟨base, es ++ [⟨.vertex, k, ⟨r, [], []⟩⟩]⟩ (penReader m f pen)
      ⟨base, es ++ [⟨.vertex, k, ⟨ts.foldl (DxbTrait.apply m f) r, [], []⟩⟩]⟩ := by
  induction ts generalizing r with
  | nil => exact .nil _ _
  | cons t ts ih => exact (loops_trait t base es k r).trans (ih _)

theorem reads_line_to (p q : Point) :
    Reads [] (do
      modify fun s => { s with lastLinePoint := q }
      mkLine p q) (penReader m f pen) (penFlat pen .line (newLine p q))
      (penReader m f { pen with line := q }) :=
  Reads.step (fun _ _ _ => rfl) (reads_pen (pen := { pen with line := q }) .line (newLine p q))

theorem reads_trace_to (p q r s : Point) :
    Reads [] (mkTrace p q r s) (penReader m f pen) (penFlat pen .trace (newTrace p q r s))
      (penReader m f { pen with trace := (r, s) }) :=
  Reads.step (fun _ _ _ => rfl)
    (reads_pen (pen := { pen with trace := (r, s) }) .trace (newTrace p q r s))

theorem item_line (p q : DxbXyz) :
    Reads (p.bytes m ++ q.bytes m) readLine (penReader m f pen)
      (penFlat pen .line (newLine (p.point m f) (q.point m f)))
      (penReader m f { pen with line := q.point m f }) := by
  have := (reads_space (m := m) (f := f) (pen := pen) p).bind
    (k := fun p1 => readXyz >>= fun p2 => do
      modify fun s => { s with lastLinePoint := p2 }
      mkLine p1 p2) ((reads_space q).bind (reads_line_to _ _))
  rw [List.append_nil] at this
  exact this

theorem reads_line_from {bs : List Byte} {q : Point} {r : DxbM Point}
    (h : Reads bs r (penReader m f pen) q (penReader m f pen)) :
    Reads bs (do
      let p2 ← r
      let p1 := (← get).lastLinePoint
      modify fun s => { s with lastLinePoint := p2 }
      mkLine p1 p2) (penReader m f pen) (penFlat pen .line (newLine pen.line q))
      (penReader m f { pen with line := q }) := by
  have h2 : Reads [] (do
      let p1 := (← get).lastLinePoint
      modify fun s => { s with lastLinePoint := q }
      mkLine p1 q) (penReader m f pen) (penFlat pen .line (newLine pen.line q))
      (penReader m f { pen with line := q }) := fun rest off => reads_line_to pen.line q rest off
  have := h.bind (k := fun p2 => get >>= fun s => do
    let p1 := s.lastLinePoint
    modify fun s => { s with lastLinePoint := p2 }
    mkLine p1 p2) h2
  rw [List.append_nil] at this
  exact this

theorem item_lineTo (q : DxbXy) :
    Reads (q.bytes m) readLineExtension (penReader m f pen)
      (penFlat pen .line (newLine pen.line (q.point m f)))
      (penReader m f { pen with line := q.point m f }) :=
  reads_line_from (reads_plane q)

theorem item_lineToXyz (q : DxbXyz) :
    Reads (q.bytes m) readLineExtension3D (penReader m f pen)
      (penFlat pen .line (newLine pen.line (q.point m f)))
      (penReader m f { pen with line := q.point m f }) :=
  reads_line_from (reads_space q)

theorem item_point (p : DxbXy) :
    Reads (p.bytes m) readPoint (penReader m f pen)
      (penFlat pen .modelPoint (newPoint (p.point m f))) (penReader m f pen) := by
  have := (reads_plane (m := m) (f := f) (pen := pen) p).bind
    (k := fun p => wrap .modelPoint (newPoint p)) (reads_pen _ _)
  rw [List.append_nil] at this
  exact this

theorem item_circle (p : DxbXy) (r : BitVec 32) :
    Reads (p.bytes m ++ m.n r) readCircle (penReader m f pen)
      (penFlat pen .circle (newCircle (p.point m f) (m.coord f r))) (penReader m f pen) := by
  have := (reads_plane (m := m) (f := f) (pen := pen) p).bind (k := fun p => do
    let r ← readN; wrap .circle (newCircle p r)) ((reads_coord r).bind (reads_pen _ _))
  rw [List.append_nil] at this
  exact this

theorem item_arc (p : DxbXy) (r a b : BitVec 32) :
    Reads (p.bytes m ++ m.n r ++ DxbMode.long a ++ DxbMode.long b) readArc (penReader m f pen)
      (penFlat pen .arc (newArc (p.point m f) (m.coord f r) (m.angle f a) (m.angle f b)))
      (penReader m f pen) := by
  have := (reads_plane (m := m) (f := f) (pen := pen) p).bind (k := fun p => do
    let r ← readN; let a ← readA; let b ← readA; wrap .arc (newArc p r a b))
    ((reads_coord r).bind ((reads_angle a).bind ((reads_angle b).bind (reads_pen _ _))))
  simp only [List.append_nil, ← List.append_assoc] at this
  exact this

theorem item_trace (p q r s : DxbXy) :
    Reads (p.bytes m ++ q.bytes m ++ r.bytes m ++ s.bytes m) readTrace (penReader m f pen)
      (penFlat pen .trace (newTrace (p.point m f) (q.point m f) (r.point m f) (s.point m f)))
      (penReader m f { pen with trace := (r.point m f, s.point m f) }) := by
  have := (reads_plane (m := m) (f := f) (pen := pen) p).bind (k := fun p => do
    let q ← readXy; let r ← readXy; let s ← readXy; mkTrace p q r s)
    ((reads_plane q).bind ((reads_plane r).bind ((reads_plane s).bind (reads_trace_to _ _ _ _))))
  simp only [List.append_nil, ← List.append_assoc] at this
  exact this

theorem item_traceTo (r s : DxbXy) :
    Reads (r.bytes m ++ s.bytes m) readTraceExtension (penReader m f pen)
      (penFlat pen .trace (newTrace pen.trace.1 pen.trace.2 (r.point m f) (s.point m f)))
      (penReader m f { pen with trace := (r.point m f, s.point m f) }) := by
  have h2 : Reads [] (do
      let s' ← get
      mkTrace s'.lastTraceP3 s'.lastTraceP4 (r.point m f) (s.point m f)) (penReader m f pen)
      (penFlat pen .trace (newTrace pen.trace.1 pen.trace.2 (r.point m f) (s.point m f)))
      (penReader m f { pen with trace := (r.point m f, s.point m f) }) :=
    fun rest off => reads_trace_to pen.trace.1 pen.trace.2 _ _ rest off
  have := (reads_plane (m := m) (f := f) (pen := pen) r).bind (k := fun r => do
    let s ← readXy
    let s' ← get
    mkTrace s'.lastTraceP3 s'.lastTraceP4 r s)
    ((reads_plane s).bind h2)
  rw [List.append_nil] at this
  exact this

theorem item_solid (p q r s : DxbXy) :
    Reads (p.bytes m ++ q.bytes m ++ r.bytes m ++ s.bytes m) readSolid (penReader m f pen)
      (penFlat pen .solid (newSolid (p.point m f) (q.point m f) (r.point m f) (s.point m f)))
      (penReader m f pen) := by
  have := (reads_plane (m := m) (f := f) (pen := pen) p).bind (k := fun p => do
    let q ← readXy; let r ← readXy; let s ← readXy; wrap .solid (newSolid p q r s))
    ((reads_plane q).bind ((reads_plane r).bind ((reads_plane s).bind (reads_pen _ _))))
  simp only [List.append_nil, ← List.append_assoc] at this
  exact this

theorem item_face (p q r s : DxbXyz) :
    Reads (p.bytes m ++ q.bytes m ++ r.bytes m ++ s.bytes m) readFace (penReader m f pen)
      (penFlat pen .face3D (newFace (p.point m f) (q.point m f) (r.point m f) (s.point m f)))
      (penReader m f pen) := by
  have := (reads_space (m := m) (f := f) (pen := pen) p).bind (k := fun p => do
    let q ← readXyz; let r ← readXyz; let s ← readXyz; wrap .face3D (newFace p q r s))
    ((reads_space q).bind ((reads_space r).bind ((reads_space s).bind (reads_pen _ _))))
  simp only [List.append_nil, ← List.append_assoc] at this
  exact this

theorem item_polyline (closed : Bool) :
    Reads (leBytes 2 (if closed then 1 else 0)) readPolyline (penReader m f pen)
      (penFlat pen .polyline (newPolyline (scaledWord f (if closed then 1#16 else 0#16) != 0#32)))
      (penReader m f pen) := by
  have := (reads_word (m := m) (f := f) (pen := pen) (if closed then 1#16 else 0#16)).bind
    (k := fun v => wrap .polyline (newPolyline (v != 0#32))) (reads_pen _ _)
  rw [List.append_nil] at this
  have e : (if closed then 1#16 else 0#16).toNat = if closed then 1 else 0 := by
    cases closed <;> rfl
  rw [e] at this
  exact this

theorem item_vertex (p : DxbXy) :
    Reads (p.bytes m) readVertex (penReader m f pen)
      (penFlat pen .vertex (newVertex (p.point m f))) (penReader m f pen) := by
  have := (reads_plane (m := m) (f := f) (pen := pen) p).bind
    (k := fun p => wrap .vertex (newVertex p)) (reads_pen _ _)
  rw [List.append_nil] at this
  exact this

theorem loops_node (v : DxbVertex) (base : Option Point) (es : List Flat) :
    Loops (v.bytes m) (penReader m f pen) ⟨base, es⟩ (penReader m f pen)
      ⟨base, es ++ [vertexFlat m f pen v]⟩ :=
  (loops_pen (i := 20) ⟨base, es⟩ (by omega) (by omega) rfl (item_vertex v.location)).trans
    (loops_traits v.traits base es 0 _)

theorem loops_nodes (vs : List DxbVertex) (base : Option Point) (es : List Flat) :
    Loops (vs.flatMap (DxbVertex.bytes m)) (penReader m f pen) ⟨base, es⟩ (penReader m f pen)
      ⟨base, es ++ vs.map (vertexFlat m f pen)⟩ := by
  induction vs generalizing es with
  | nil =>
    rw [List.map_nil, List.append_nil]
    exact .nil _ _
  | cons v vs ih =>
    have := (loops_node (m := m) (f := f) (pen := pen) v base es).trans (ih _)
    rw [List.append_assoc, List.singleton_append] at this
    exact this

theorem loops_layer' (name : Str) (h : Str.Latin name) (found : Found) :
    Loops (DxbItem.bytes m (.layer name)) (penReader m f pen) found
      (penReader m f { pen with layer := name }) found := by
  have := (reads_string (penReader m f pen) name h).bind (k := fun v => do
    modify fun s => { s with layerName := v }
    return found) (Reads.step (fun _ _ _ => rfl)
      (.pure found (penReader m f { pen with layer := name })))
  rw [List.append_nil] at this
  exact Loops.other (i := 129) (by omega) (by omega) rfl rfl this

theorem loops_color' (c : I16) (found : Found) :
    Loops (DxbItem.bytes m (.color c)) (penReader m f pen) found
      (penReader m f { pen with color := (scaledWord f c).setWidth 16 }) found := by
  have := (reads_word (m := m) (f := f) (pen := pen) c).bind (k := fun v => do
    modify fun s => { s with currentColor := v.setWidth 16 }
    return found) (Reads.step (fun _ _ _ => rfl)
      (.pure found (penReader m f { pen with color := (scaledWord f c).setWidth 16 })))
  rw [List.append_nil] at this
  exact Loops.other (i := 136) (by omega) (by omega) rfl rfl this

theorem loops_polyline (closed : Bool) (vs : List DxbVertex) (base : Option Point)
    (es : List Flat) :
    Loops (DxbItem.bytes m (.polyline closed vs)) (penReader m f pen) ⟨base, es⟩
      (penReader m f pen) ⟨base, es ++ itemFlats m f pen
        (.polyline (scaledWord f (if closed then 1#16 else 0#16) != 0#32) vs)⟩ := by
  have h1 := loops_pen (i := 19) ⟨base, es⟩ (by omega) (by omega) rfl
    (item_polyline (m := m) (f := f) (pen := pen) closed)
  have h2 := h1.trans (loops_nodes vs base _)
  have h3 := h2.trans (loops_pen (i := 17) ⟨base, _⟩ (by omega) (by omega) rfl
    (reads_pen .seqend (Rec.dflt _)))
  unfold itemFlats
  dsimp only at h3
  rw [List.append_assoc es, List.append_assoc es, List.singleton_append] at h3
  exact h3

theorem loops_item (i : DxbItem) (h : i.Named) (base : Option Point) (es : List Flat) :
    Loops (i.bytes m) (penReader m f pen) ⟨base, es⟩ (penReader m f ((i.scaled f).pen m f pen))
      ⟨base, es ++ itemFlats m f pen (i.scaled f)⟩ := by
  cases i with
  | layer name =>
    change Loops _ _ _ _ ⟨base, es ++ []⟩
    rw [List.append_nil]
    exact loops_layer' name h _
  | color c =>
    change Loops _ _ _ _ ⟨base, es ++ []⟩
    rw [List.append_nil]
    exact loops_color' c _
  | line p q => exact loops_pen (i := 1) ⟨base, es⟩ (by omega) (by omega) rfl (item_line p q)
  | lineTo q => exact loops_pen (i := 130) ⟨base, es⟩ (by omega) (by omega) rfl (item_lineTo q)
  | lineToXyz q =>
    exact loops_pen (i := 137) ⟨base, es⟩ (by omega) (by omega) rfl (item_lineToXyz q)
  | point p => exact loops_pen (i := 2) ⟨base, es⟩ (by omega) (by omega) rfl (item_point p)
  | circle p r => exact loops_pen (i := 3) ⟨base, es⟩ (by omega) (by omega) rfl (item_circle p r)
  | arc p r a b => exact loops_pen (i := 8) ⟨base, es⟩ (by omega) (by omega) rfl (item_arc p r a b)
  | trace p q r s =>
    exact loops_pen (i := 9) ⟨base, es⟩ (by omega) (by omega) rfl (item_trace p q r s)
  | traceTo r s =>
    exact loops_pen (i := 131) ⟨base, es⟩ (by omega) (by omega) rfl (item_traceTo r s)
  | solid p q r s =>
    exact loops_pen (i := 11) ⟨base, es⟩ (by omega) (by omega) rfl (item_solid p q r s)
  | face p q r s =>
    exact loops_pen (i := 22) ⟨base, es⟩ (by omega) (by omega) rfl (item_face p q r s)
  | polyline closed vs => exact loops_polyline closed vs base es

/-- What is read of a list of items. -/
def allFlats (m : DxbMode) (f : F64) : DxbPen → List DxbItem → List Flat
  | _, [] => []
  | pen, i :: is => itemFlats m f pen i ++ allFlats m f (i.pen m f pen) is

theorem loops_items (is : List DxbItem) (h : ∀ i ∈ is, i.Named) (base : Option Point)
    (es : List Flat) : ∃ pen', Loops (is.flatMap (DxbItem.bytes m)) (penReader m f pen) ⟨base, es⟩
      (penReader m f pen') ⟨base, es ++ allFlats m f pen (is.map (DxbItem.scaled f))⟩ := by
  induction is generalizing pen es with
  | nil =>
    refine ⟨pen, ?_⟩
    rw [List.map_nil, allFlats, List.append_nil]
    exact .nil _ _
  | cons i is ih =>
    obtain ⟨pen', h2⟩ := ih (pen := (i.scaled f).pen m f pen)
      (fun j hj => h j (List.mem_cons_of_mem _ hj)) (es ++ itemFlats m f pen (i.scaled f))
    refine ⟨pen', ?_⟩
    have := (loops_item (m := m) (f := f) (pen := pen) i (h i List.mem_cons_self) base es).trans h2
    rw [List.append_assoc] at this
    exact this

theorem reads_scale (s : DxbReader) : Reads (leBytes 8 f.bits.toNat) readF s f s := by
  intro rest off
  refine ⟨off + 8, ?_⟩
  unfold readF
  dsimp only
  have hl : (leBytes 8 f.bits.toNat).length = 8 := leBytes_length 8 _
  rw [if_pos (by rw [List.length_append]; omega), List.take_left' hl, List.drop_left' hl,
    leVal_word 64 (by norm_num)]

theorem loops_scale (s : DxbReader) (found : Found) :
    Loops (byte 128 :: leBytes 8 f.bits.toNat) s found { s with scaleFactor := f } found := by
  have := (reads_scale (f := f) s).bind (k := fun v => do
    modify fun s => { s with scaleFactor := v }
    return found) (Reads.step (fun _ _ _ => rfl) (.pure found { s with scaleFactor := f }))
  rw [List.append_nil] at this
  exact Loops.other (i := 128) (by omega) (by omega) rfl rfl this

/-- The start of the file. -/
theorem loops_start (found : Found) : Loops (m.choose ++ (byte 128 :: leBytes 8 f.bits.toNat)) (reader []) found
      (penReader m f .start) found := by
  cases m with
  | float => exact (loops_mode rfl found).trans (loops_scale _ found)
  | whole => exact loops_scale (reader []) found

/-- A mode that is chosen when there is a scale factor. -/
theorem loops_mode' (m' : DxbMode) (w : I16) (h : (scaledWord f w == 0#32) = isWhole m')
    (found : Found) : Loops (byte 135 :: leBytes 2 w.toNat) (penReader m f pen) found
      (penReader m' f pen) found := by
  have := (reads_word (m := m) (f := f) (pen := pen) w).bind (k := fun v => do
    modify fun s => { s with isIntegerMode := v == 0#32 }
    return found) (Reads.step (fun _ _ _ => rfl) (.pure found { penReader m f pen with
      isIntegerMode := scaledWord f w == 0#32 }))
  rw [List.append_nil, h] at this
  exact Loops.other (i := 135) (by omega) (by omega) rfl rfl this

/-! ### Gathering -/

theorem set_agree {ds : List Decl} {r r' : Rec ds} (h : ∀ j, 18 ≤ j → r j = r' j) (i : Nat)
    (v : (tyAt ds i).den) (j : Nat) (hj : 18 ≤ j) : r.set i v j = r'.set i v j := by
  by_cases e : j = i
  · subst e
    rw [Rec.set_self, Rec.set_self]
  · rw [Rec.set_ne r v e, Rec.set_ne r' v e]
    exact h j hj

theorem traits_agree (ts : List DxbTrait) {r r' : Rec EName.vertex.decls}
    (h : ∀ j, 18 ≤ j → r j = r' j) (j : Nat) (hj : 18 ≤ j) :
    ts.foldl (DxbTrait.apply m f) r j = ts.foldl (DxbTrait.apply m f) r' j := by
  induction ts generalizing r r' with
  | nil => exact h j hj
  | cons t ts ih =>
    refine ih ?_
    cases t with
    | bulge u => exact set_agree h 21 _
    | widths a b => exact set_agree (set_agree h 19 _) 20 _

theorem traits_low (ts : List DxbTrait) (r : Rec EName.vertex.decls) (j : Nat) (hj : j < 18) :
    ts.foldl (DxbTrait.apply m f) r j = r j := by
  induction ts generalizing r with
  | nil => rfl
  | cons t ts ih =>
    refine (ih _).trans ?_
    cases t with
    | bulge u => exact Rec.set_ne r (i := 21) (m.bulge f u) (by omega)
    | widths a b =>
      exact (Rec.set_ne (r.set 19 (m.coord f a)) (i := 20) (m.coord f b) (by omega)).trans
        (Rec.set_ne r (i := 19) (m.coord f a) (by omega))

theorem bare_traits (ts : List DxbTrait) (l : Str) (c : I16) (p : Point) :
    Rec.bare (ds := EName.vertex.kind.spec) (ts.foldl (DxbTrait.apply m f)
      ((newVertex p).set 7 (c : I16) |>.set 3 (l : Str))) =
    ts.foldl (DxbTrait.apply m f) (newVertex p) := by
  funext i
  unfold Rec.bare
  split
  · rename_i h
    refine Eq.trans ?_ (traits_low ts (newVertex p) i h).symm
    exact (Rec.set_ne (Rec.dflt EName.vertex.decls) (i := 18) p (by omega)).symm
  · rename_i h
    refine traits_agree ts (fun j hj => ?_) i (by omega)
    exact (Rec.set_ne (ds := EName.vertex.decls) _ (i := 3) l (by omega)).trans
      (Rec.set_ne (newVertex p) (i := 7) c (by omega))

/-- The vertices that are gathered. -/
def nodeVert (m : DxbMode) (f : F64) (v : DxbVertex) : Vert :=
  { v.vert m f with handle := autoReplaceHandle }

theorem gather_nodes (vs : List DxbVertex) (x : Flat) (hx : x.kind ≠ .vertex) (rest : List Flat) :
    gatherVerts (vs.map (vertexFlat m f pen) ++ x :: rest) = (vs.map (nodeVert m f), x :: rest) := by
  induction vs with
  | nil =>
    obtain ⟨k, i, e⟩ := x
    cases k
    case vertex => exact absurd rfl hx
    all_goals rfl
  | cons v vs ih =>
    rw [List.map_cons, List.cons_append]
    change (Vert.mk (Rec.bare _) autoReplaceHandle :: (gatherVerts _).1, (gatherVerts _).2) = _
    rw [ih]
    exact congrArg (fun r => (Vert.mk r autoReplaceHandle :: vs.map (nodeVert m f), x :: rest))
      (bare_traits v.traits pen.layer pen.color _)

/-- The entity of an item before handles are given. -/
def itemLoaded (m : DxbMode) (f : F64) (pen : DxbPen) (i : DxbItem) : Option Entity :=
  match i with
  | .polyline closed vs => some { pen.entity .polyline (newPolyline closed) with
      extra := { Extra.dflt with verts := vs.map (nodeVert m f) } }
  | i => i.entity m f pen

theorem collect_item (i : DxbItem) (rest : List Flat) (out : List Entity)
    (ih : ∀ g, rest.length < g → collect g rest = .ok out) (fuel : Nat)
    (h : (itemFlats m f pen i).length + rest.length < fuel) :
    collect fuel (itemFlats m f pen i ++ rest) = .ok ((itemLoaded m f pen i).toList ++ out) := by
  obtain ⟨g, rfl⟩ : ∃ g, fuel = g + 1 := ⟨fuel - 1, by omega⟩
  cases i
  case polyline closed vs =>
    have hg := gather_nodes (m := m) (f := f) (pen := pen) vs (penFlat pen .seqend (Rec.dflt _))
      (fun h => nomatch h) rest
    have hr := ih g (by simp only [itemFlats, List.length_cons, List.length_append] at h; omega)
    simp only [itemFlats, List.cons_append, List.append_assoc, List.nil_append] at hg ⊢
    change (do
      let (vs, xs) := gatherVerts _
      let rest ← collect g (swallowSeqend xs)
      return (Entity.mk _ { Extra.dflt with verts := vs }) :: rest) = _
    rw [hg]
    change (do
      let rest ← collect g rest
      return (Entity.mk _ { Extra.dflt with verts := vs.map (nodeVert m f) }) :: rest) = _
    rw [hr]
    rfl
  case layer | color =>
    exact ih (g + 1) (by simp only [itemFlats, DxbItem.entity] at h; simp at h; omega)
  all_goals
    have hr := ih g (by
      simp only [itemFlats, DxbItem.entity, Option.map_some, Option.toList_some,
        List.length_singleton] at h
      omega)
    change (do
      let rest ← collect g rest
      return _ :: rest) = _
    rw [hr]
    rfl

/-- What is loaded of a list of items. -/
def allLoaded (m : DxbMode) (f : F64) : DxbPen → List DxbItem → List Entity
  | _, [] => []
  | pen, i :: is => (itemLoaded m f pen i).toList ++ allLoaded m f (i.pen m f pen) is

theorem collect_items (is : List DxbItem) (fuel : Nat) (h : (allFlats m f pen is).length < fuel) :
    collect fuel (allFlats m f pen is) = .ok (allLoaded m f pen is) := by
  induction is generalizing fuel pen with
  | nil =>
    obtain ⟨g, rfl⟩ : ∃ g, fuel = g + 1 := ⟨fuel - 1, by omega⟩
    rfl
  | cons i is ih =>
    rw [allFlats, List.length_append] at h
    rw [allFlats, allLoaded]
    exact collect_item i _ _ (fun g hg => ih g hg) fuel h

theorem itemLoaded_handle {i : DxbItem} {x : Entity} (h : itemLoaded m f pen i = some x) :
    x.handle = 0#64 := by
  cases i <;> cases h <;> rfl

theorem item_withHandles {i : DxbItem} {x y : Entity} (h : itemLoaded m f pen i = some x)
    (hy : Entity.Handled x y) : ∃ z, i.entity m f pen = some z ∧ z.WithHandles y := by
  unfold Entity.Handled at hy
  rw [if_pos (itemLoaded_handle h)] at hy
  obtain ⟨hd, h1, h2⟩ := hy
  cases i
  case polyline closed vs =>
    cases h
    refine ⟨_, rfl, hd, h1, h2.trans ?_⟩
    simp only [Extra.unhandled, List.map_map]
    rfl
  case layer | color => cases h
  all_goals exact ⟨x, h, hd, h1, h2⟩

theorem itemLoaded_none {i : DxbItem} (h : itemLoaded m f pen i = none) :
    i.entity m f pen = none := by
  cases i <;> first | rfl | cases h

theorem all_withHandles {is : List DxbItem} {ys : List Entity}
    (h : List.Forall₂ Entity.Handled (allLoaded m f pen is) ys) :
    List.Forall₂ Entity.WithHandles (DxbItem.entities m f pen is) ys := by
  induction is generalizing ys pen with
  | nil =>
    cases h
    exact .nil
  | cons i is ih =>
    rw [allLoaded] at h
    rw [DxbItem.entities]
    cases hl : itemLoaded m f pen i with
    | none =>
      rw [hl] at h
      rw [itemLoaded_none hl]
      exact ih h
    | some x =>
      rw [hl] at h
      cases h with
      | cons h1 h2 =>
        obtain ⟨z, hz, hw⟩ := item_withHandles hl h1
        rw [hz]
        exact .cons hw (ih h2)

theorem allLoaded_handle {is : List DxbItem} {x : Entity} (h : x ∈ allLoaded m f pen is) :
    x.handle = 0#64 := by
  induction is generalizing pen with
  | nil => cases h
  | cons i is ih =>
    rw [allLoaded] at h
    rcases List.mem_append.mp h with h | h
    · exact itemLoaded_handle (Option.mem_toList.mp h)
    · exact ih h

theorem item_cost (i : DxbItem) :
    ((itemLoaded m f pen i).toList.map fun e => 18 + e.extra.atts.length +
      e.extra.verts.length).sum ≤ 18 + (i.bytes m).length := by
  cases i
  case polyline closed vs =>
    have : vs.length ≤ (vs.flatMap (DxbVertex.bytes m)).length := by
      induction vs with
      | nil => simp
      | cons v vs ih =>
        rw [List.flatMap_cons, List.length_append, List.length_cons]
        have : 1 ≤ (v.bytes m).length := by simp [DxbVertex.bytes]
        omega
    simp only [itemLoaded, Option.toList_some, List.map_cons, List.map_nil, List.sum_cons,
      List.sum_nil, List.length_map, DxbItem.bytes, List.length_cons, List.length_append]
    change 18 + 0 + vs.length + 0 ≤ _
    omega
  case layer | color => exact Nat.zero_le _
  all_goals exact Nat.le_add_right 18 _

theorem all_cost (is : List DxbItem) :
    ((allLoaded m f pen is).map fun e => 18 + e.extra.atts.length +
      e.extra.verts.length).sum ≤ 19 * (is.flatMap (DxbItem.bytes m)).length := by
  induction is generalizing pen with
  | nil => simp [allLoaded]
  | cons i is ih =>
    rw [allLoaded, List.map_append, List.sum_append, List.flatMap_cons, List.length_append]
    have h1 := item_cost (m := m) (f := f) (pen := pen) i
    have h2 := ih (pen := i.pen m f pen)
    have h3 : 1 ≤ (i.bytes m).length := by cases i <;> simp [DxbItem.bytes]
    omega

theorem scaled_length (i : DxbItem) : ((i.scaled f).bytes m).length = (i.bytes m).length := by
  cases i
  case color | polyline =>
    simp only [DxbItem.scaled, DxbItem.bytes, List.length_cons, List.length_append, leBytes_length]
  all_goals rfl

theorem scaled_lengths (is : List DxbItem) :
    ((is.map (DxbItem.scaled f)).flatMap (DxbItem.bytes m)).length =
      (is.flatMap (DxbItem.bytes m)).length := by
  induction is with
  | nil => rfl
  | cons i is ih =>
    rw [List.map_cons, List.flatMap_cons, List.flatMap_cons, List.length_append,
      List.length_append, ih, scaled_length]

theorem allLoaded_length (is : List DxbItem) : (allLoaded m f pen is).length ≤ is.length := by
  induction is generalizing pen with
  | nil => exact Nat.le_refl _
  | cons i is ih =>
    rw [allLoaded, List.length_append, List.length_cons]
    have := ih (pen := i.pen m f pen)
    have h : (itemLoaded m f pen i).toList.length ≤ 1 := by
      cases itemLoaded m f pen i <;> simp
    omega

/-- A file of items after some start. -/
theorem load_items {Img : Type} {h0 : Header} (hfr : h0.Fresh) (order : List Str)
    (ho : 41 + 2 * order.length < 2 ^ 64) (enc : Enc) {pre : List Byte} (is : List DxbItem)
    (hpre : Loops pre (reader []) ⟨none, []⟩ (penReader m f .start) ⟨none, []⟩)
    (h : ∀ i ∈ is, i.Named)
    (hroom : 19 * (is.flatMap (DxbItem.bytes m)).length + 1 < 2 ^ 64) :
    ∃ d0 d' : Drawing Img, Drawing.new h0 order = .ok d0 ∧
      Drawing.loadDxbFile enc h0 order (sentinel ++ (pre ++ is.flatMap (DxbItem.bytes m) ++
        [byte 0])) = .ok (some d') ∧
      Drawing.Entitied (allLoaded m f .start (is.map (DxbItem.scaled f))) d0.clear d' := by
  obtain ⟨d0, h1⟩ := Drawing.new_ok (Img := Img) hfr order ho
  obtain ⟨pen', h2⟩ := loops_items (m := m) (f := f) (pen := .start) is h none []
  obtain ⟨s', h2⟩ := items_of_loops (hpre.trans h2) []
  have h3 := collect_items (m := m) (f := f) (pen := .start) (is.map (DxbItem.scaled f)) _
    (Nat.lt_succ_self _)
  obtain ⟨d', h4, -⟩ := Drawing.affords_fold (Img := Img) Drawing.addReadEntity _
    Drawing.affords_readEntity (allLoaded m f .start (is.map (DxbItem.scaled f))) d0.clear 0 (by
      have := all_cost (m := m) (f := f) (pen := .start) (is.map (DxbItem.scaled f))
      rw [scaled_lengths] at this
      unfold Drawing.Room
      rw [clear_next]
      change 1 + _ < _
      omega)
  refine ⟨d0, d', h1, ?_, Drawing.entitied h4⟩
  rw [Drawing.loadDxbFile, sentinel_line]
  dsimp only
  rw [if_pos rfl, Drawing.loadDxb, h2]
  simp only [bind, Except.bind]
  rw [List.nil_append, h3]
  dsimp only
  rw [h1]
  have := addEntity_read (Img := Img) (es := allLoaded m f .start (is.map (DxbItem.scaled f)))
    (fun e he => allLoaded_handle he) d0.clear
  simp only [bind, Except.bind] at this
  dsimp only
  rw [this, h4]
  rfl

theorem loops_base (p : DxbXy) :
    Loops (byte 132 :: p.bytes m) (penReader m f pen) ⟨none, []⟩ (penReader m f pen)
      ⟨some (p.point m f), []⟩ := by
  have := (reads_plane (m := m) (f := f) (pen := pen) p).bind (k := fun p =>
    if (none : Option Point).isNone && ([] : List Flat).isEmpty then
      pure (⟨some p, []⟩ : Found) else fail .invalidBinaryFile)
    (.pure (⟨some (p.point m f), []⟩ : Found) (penReader m f pen))
  rw [List.append_nil] at this
  exact Loops.other (i := 132) (by omega) (by omega) rfl rfl this

/-- A file of items that is a block. -/
theorem load_block {Img : Type} {h0 : Header} (hfr : h0.Fresh) (order : List Str)
    (ho : 41 + 2 * order.length < 2 ^ 64) (enc : Enc) (p : DxbXy) (is : List DxbItem)
    (h : ∀ i ∈ is, i.Named) (hroom : 5 * is.length + 6 < 2 ^ 64) :
    ∃ (d' : Drawing Img) (b : Block) (hd : Handle),
      Drawing.loadDxbFile enc h0 order (dxbBlockFile m f p is) = .ok (some d') ∧
      d'.entities = [] ∧ d'.blocks = [b] ∧
      b.entry = ((Drawing.dxbBlock (p.point m f) []).setHandle hd).entry ∧
      List.Forall₂ (fun e e' => ∃ hd, e' = e.setHandle hd)
        (allLoaded m f .start (is.map (DxbItem.scaled f))) b.entities := by
  obtain ⟨d0, h1⟩ := Drawing.new_ok (Img := Img) hfr order ho
  obtain ⟨pen', h2⟩ := loops_items (m := m) (f := f) (pen := .start) is h (some (p.point m f)) []
  obtain ⟨s', h2⟩ := items_of_loops (((loops_start ⟨none, []⟩).trans (loops_base p)).trans h2) []
  have h3 := collect_items (m := m) (f := f) (pen := .start) (is.map (DxbItem.scaled f)) _
    (Nat.lt_succ_self _)
  obtain ⟨⟨b', d'⟩, h4, -⟩ := Drawing.affords_block d0.clear (Drawing.dxbBlock (p.point m f)
    (allLoaded m f .start (is.map (DxbItem.scaled f)))) 0 (by
      have := allLoaded_length (m := m) (f := f) (pen := .start) (is.map (DxbItem.scaled f))
      rw [List.length_map] at this
      unfold Drawing.Room
      rw [clear_next]
      change 1 + (5 + 5 * (allLoaded m f .start (is.map (DxbItem.scaled f))).length + 0) < _
      omega)
  obtain ⟨⟨hd, d1⟩, h5, h6⟩ := Drawing.bind_ok h4
  obtain ⟨-, h7, -, h8, -⟩ := Drawing.addBlockNoHandle_more h6
  obtain ⟨-, -, -, -, -, -, -, -, -, hf, hb, -⟩ := Drawing.addBlockNoHandle_ok h6
  obtain ⟨-, rfl, -⟩ := Drawing.nextHandle_ok h5
  refine ⟨d', b', hd, ?_, h7, h8, ?_, hf⟩
  · rw [Drawing.loadDxbFile, dxbBlockFile, sentinel_line]
    dsimp only
    rw [if_pos rfl, Drawing.loadDxb, h2]
    simp only [bind, Except.bind]
    rw [List.nil_append, h3]
    dsimp only
    rw [h1]
    dsimp only
    rw [h4]
    rfl
  · rw [hb]
    rfl

/-! ### Items that cannot be read -/

theorem itemFlats_last (i : DxbItem) (x : Flat) (h : (itemFlats m f pen i).getLast? = some x) :
    x.kind ≠ .vertex := by
  cases i
  case polyline closed vs =>
    rw [itemFlats, ← List.cons_append, List.getLast?_concat] at h
    cases h
    exact fun h => nomatch h
  case layer | color => cases h
  all_goals
    cases h
    exact fun h => nomatch h

theorem allFlats_last (is : List DxbItem) (x : Flat) (h : (allFlats m f pen is).getLast? = some x) :
    x.kind ≠ .vertex := by
  induction is generalizing pen with
  | nil => cases h
  | cons i is ih =>
    rw [allFlats, List.getLast?_append] at h
    cases hl : (allFlats m f (i.pen m f pen) is).getLast? with
    | none =>
      rw [hl] at h
      exact itemFlats_last i x h
    | some y =>
      rw [hl] at h
      cases h
      exact ih hl

theorem updateVertex_fails (g : Rec EName.vertex.decls → Rec EName.vertex.decls) (found : Found)
    (h : ∀ x, found.entities.getLast? = some x → x.kind ≠ .vertex) (s : DxbReader) :
    ∃ e, updateVertex g found s = .error e := by
  unfold updateVertex
  rw [run_get]
  cases hl : found.entities.getLast? with
  | none => exact ⟨_, rfl⟩
  | some x =>
    have := h x hl
    obtain ⟨k, i, e⟩ := x
    cases k
    case vertex => exact absurd rfl this
    all_goals exact ⟨_, rfl⟩

/-- Given these bytes, the function fails. -/
def Fails {α : Type} (bs : List Byte) (r : DxbM α) (s : DxbReader) : Prop :=
  ∀ rest off, ∃ e, r { s with bytes := bs ++ rest, offset := off } = .error e

theorem Fails.bind {α β : Type} {bs cs : List Byte} {r : DxbM α} {k : α → DxbM β}
    {s s' : DxbReader} {a : α} (h : Reads bs r s a s') (hk : Fails cs (k a) s') :
    Fails (bs ++ cs) (r >>= k) s := by
  intro rest off
  obtain ⟨o, h⟩ := h (cs ++ rest) off
  obtain ⟨e, hk⟩ := hk rest o
  rw [List.append_assoc]
  exact ⟨e, (run_bind h).trans hk⟩

theorem other_fails {i : Nat} {r : DxbM Found} {bs : List Byte} {s : DxbReader} {found : Found}
    (hi : i < 256) (h0 : i ≠ 0) (he : readEntity? i = none) (hm : readOther? i found = some r)
    (h : Fails bs r s) (fuel : Nat) : Fails (item i ++ bs) (loop (fuel + 1) found) s := by
  intro rest off
  obtain ⟨e, h⟩ := h rest (off + 1)
  refine ⟨e, ?_⟩
  rw [loop, run_get, run_bind (word_item hi s bs rest off), if_neg h0, he]
  dsimp only
  rw [hm]
  exact run_err h

/-- A bulge or widths when the last entity is no vertex. -/
theorem trait_fails (t : DxbTrait) (found : Found)
    (h : ∀ x, found.entities.getLast? = some x → x.kind ≠ .vertex) (fuel : Nat) :
    Fails (t.bytes m) (loop (fuel + 1) found) (penReader m f pen) := by
  cases t with
  | bulge u =>
    have := Fails.bind (k := fun b => updateVertex (fun r => r.set 21 b) found) (cs := [])
      (reads_bulge (m := m) (f := f) (pen := pen) u)
      (fun rest off => updateVertex_fails _ found h _)
    rw [List.append_nil] at this
    exact other_fails (i := 133) (by omega) (by omega) rfl rfl this fuel
  | widths a b =>
    have := Fails.bind (k := fun x => readN >>= fun y =>
        updateVertex (fun r => (r.set 19 x).set 20 y) found)
      (reads_coord (m := m) (f := f) (pen := pen) a)
      (Fails.bind (cs := []) (reads_coord b) (fun rest off => updateVertex_fails _ found h _))
    rw [List.append_nil] at this
    exact other_fails (i := 134) (by omega) (by omega) rfl rfl this fuel

theorem items_fails {bs cs : List Byte} {s' : DxbReader} {found : Found}
    (h : Loops bs (reader []) ⟨none, []⟩ s' found)
    (hf : ∀ fuel, Fails cs (loop (fuel + 1) found) s') (rest : List Byte) :
    ∃ e, items (reader ([byte 0x1A, byte 0] ++ (bs ++ (cs ++ rest)))) = .error e := by
  obtain ⟨k, hk, h⟩ := h
  rw [items_start]
  have hlen : (bs ++ (cs ++ rest)).length + 1 = bs.length - k + (cs ++ rest).length + 1 + k := by
    rw [List.length_append]
    omega
  rw [hlen]
  obtain ⟨off, l5⟩ := h (cs ++ rest) 2 (bs.length - k + (cs ++ rest).length + 1)
  obtain ⟨e, l6⟩ := hf (bs.length - k + (cs ++ rest).length) rest off
  exact ⟨e, l5.trans l6⟩

theorem forall2_imp_mem {α β : Type} {R S : α → β → Prop} {xs : List α} {ys : List β}
    (h : ∀ x y, x ∈ xs → R x y → S x y) (hr : List.Forall₂ R xs ys) : List.Forall₂ S xs ys := by
  induction hr with
  | nil => exact .nil
  | cons hxy _ ih =>
    exact .cons (h _ _ List.mem_cons_self hxy)
      (ih fun x y hx => h x y (List.mem_cons_of_mem _ hx))

end Dxb

end Dxf
