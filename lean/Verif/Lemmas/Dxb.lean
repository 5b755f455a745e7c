import Verif.Spec.Dxb
import Verif.Lemmas.BinCodec
import Verif.Lemmas.Single
import Verif.Lemmas.Reload

/-! Lemmas about DXB files. -/

namespace Dxf

namespace Dxb

/-! ### Numbers -/

theorem single_of_bytes (d : F64) :
    F32.widen (BitVec.ofNat 32 (leVal (n d))) = F32.single d := by
  unfold n F32.single
  rw [leVal_leBytes]
  congr 1
  apply BitVec.eq_of_toNat_eq
  have := (F32.narrow d).isLt
  rw [BitVec.toNat_ofNat, show (256 : Nat) ^ 4 = 2 ^ 32 by norm_num, Nat.mod_mod,
    Nat.mod_eq_of_lt this]

theorem n_length (d : F64) : (n d).length = 4 := leBytes_length 4 _
theorem w_length (v : I16) : (w v).length = 2 := leBytes_length 2 _

/-- A product with one. -/
theorem toIntSat_mul_unit (k : Int) (h : k.natAbs < 2 ^ 31) :
    F64.toIntSat (-2 ^ 31) (2 ^ 31 - 1) ((F64.ofInt k).mul .unit) = k := by
  have h53 : k.natAbs < 2 ^ 53 := by omega
  obtain ⟨h1, h2, h3⟩ := ofInt_spec k h53
  obtain ⟨n1, n2⟩ := finite_not_nan h1
  have u1 : F64.unit.isNan = false := by decide
  have u2 : F64.unit.isInf = false := by decide
  have u3 : F64.unit.neg = false := by decide
  have u4 : F64.unit.units = F64.oneUnits := by decide +kernel
  have e : (F64.ofInt k).mul .unit = F64.ofInt k := by
    unfold F64.mul
    rw [n1, n2, u1, u2, u3, u4, h2, h3]
    simp only [Bool.or_self, Bool.false_eq_true, if_false, Bool.bne_false]
    unfold F64.ofInt
    have := magOfRat_scale (k.natAbs * F64.oneUnits) 1 F64.oneUnits oneUnits_pos
    rw [Nat.mul_one, Nat.mul_comm] at this
    rw [this]
  rw [e, toIntSat_ofInt _ _ _ h53]
  omega

theorem word_of_bytes (v : I16) :
    BitVec.ofInt 32 (F64.toIntSat (-2 ^ 31) (2 ^ 31 - 1) ((ofWord 16 (leVal (w v))).mul .unit)) =
      v.signExtend 32 := by
  unfold w ofWord
  rw [leVal_leBytes, show (256 : Nat) ^ 2 = 2 ^ 16 by norm_num, Nat.mod_eq_of_lt v.isLt,
    BitVec.ofNat_toNat, BitVec.setWidth_eq, toIntSat_mul_unit]
  · rfl
  · have h1 := BitVec.toInt_lt (x := v)
    have h2 := BitVec.le_toInt v
    norm_num at h1 h2
    omega

/-! ### Steps of the reader -/

theorem run_bind {α β : Type} {m : DxbM α} {k : α → DxbM β} {s s' : DxbReader} {a : α}
    (h : m s = .ok (a, s')) : (m >>= k) s = k a s' := by
  change (m s >>= fun x => k x.1 x.2) = _
  rw [h]
  rfl

theorem run_err {α β : Type} {m : DxbM α} {k : α → DxbM β} {s : DxbReader} {e : DxfErr}
    (h : m s = .error e) : (m >>= k) s = .error e := by
  change (m s >>= fun x => k x.1 x.2) = _
  rw [h]
  rfl

theorem run_get {β : Type} (k : DxbReader → DxbM β) (s : DxbReader) : (get >>= k) s = k s s := rfl

theorem word_bytes {size : Nat} {bs : List Byte} (h : bs.length = size) (s : DxbReader)
    (rest : List Byte) (off : Nat) :
    word size { s with bytes := bs ++ rest, offset := off } =
      .ok (leVal bs, { s with bytes := rest, offset := off + size }) := by
  unfold word
  rw [if_pos (by rw [List.length_append]; omega)]
  subst h
  simp

/-- Given these bytes, the reader in the state `s` returns `a` and is in the state `s'`; the rest
of the bytes and the offset do not matter. -/
def Reads {α : Type} (bs : List Byte) (m : DxbM α) (s : DxbReader) (a : α) (s' : DxbReader) : Prop :=
  ∀ rest off, ∃ off', m { s with bytes := bs ++ rest, offset := off } =
    .ok (a, { s' with bytes := rest, offset := off' })

theorem Reads.pure {α : Type} (a : α) (s : DxbReader) : Reads [] (Pure.pure a) s a s :=
  fun _ off => ⟨off, rfl⟩

theorem Reads.bind {α β : Type} {bs cs : List Byte} {m : DxbM α} {k : α → DxbM β}
    {s s1 s2 : DxbReader} {a : α} {b : β} (h : Reads bs m s a s1) (h' : Reads cs (k a) s1 b s2) :
    Reads (bs ++ cs) (m >>= k) s b s2 := by
  intro rest off
  obtain ⟨o1, e1⟩ := h (cs ++ rest) off
  obtain ⟨o2, e2⟩ := h' rest o1
  refine ⟨o2, ?_⟩
  rw [List.append_assoc]
  change (m _ >>= fun x => k x.1 x.2) = _
  rw [e1]
  exact e2

/-- A step that reads nothing. -/
theorem Reads.step {α : Type} {bs : List Byte} {f : DxbReader → DxbReader} {m : DxbM α}
    {s s' : DxbReader} {a : α} (hf : ∀ s bytes off, f { s with bytes := bytes, offset := off } =
      { f s with bytes := bytes, offset := off })
    (h : Reads bs m (f s) a s') : Reads bs (do modify f; m) s a s' := by
  intro rest off
  obtain ⟨o, e⟩ := h rest off
  refine ⟨o, ?_⟩
  change m (f _) = _
  rw [hf]
  exact e

theorem reads_n {s : DxbReader} (h : s.isIntegerMode = false) (d : F64) :
    Reads (n d) readN s (F32.single d) s := by
  intro rest off
  refine ⟨off + 4, ?_⟩
  unfold readN
  rw [run_get]
  dsimp only
  rw [h, if_neg (by decide), run_bind (word_bytes (n_length d) { s with isIntegerMode := false } rest off),
    single_of_bytes]
  rfl

theorem reads_a {s : DxbReader} (h : s.isIntegerMode = false) (d : F64) :
    Reads (n d) readA s (F32.single d) s := by
  intro rest off
  refine ⟨off + 4, ?_⟩
  unfold readA
  rw [run_get]
  dsimp only
  rw [h, run_bind (word_bytes (n_length d) { s with isIntegerMode := false } rest off),
    if_neg (by decide), single_of_bytes]
  rfl

theorem reads_w {s : DxbReader} (h : s.scaleFactor = .unit) (v : I16) :
    Reads (w v) readW s (v.signExtend 32) s := by
  intro rest off
  refine ⟨off + 2, ?_⟩
  unfold readW
  rw [run_get]
  dsimp only
  rw [h, run_bind (word_bytes (w_length v) { s with scaleFactor := .unit } rest off), word_of_bytes]
  rfl

theorem readStringBin_latin (v : Str) (h : Str.Latin v) (rest : List Byte) :
    readStringBin (zstring v ++ rest) = (.ok v, rest) := by
  unfold zstring string
  induction v with
  | nil => rfl
  | cons c cs ih =>
    have hc := h c List.mem_cons_self
    rw [List.map_cons, List.cons_append, List.cons_append, readStringBin, if_neg]
    · rw [ih (fun d hd => h d (List.mem_cons_of_mem _ hd)), byte_toNat (by omega), Char.ofNat_toNat]
      rfl
    · intro hb
      have := congrArg BitVec.toNat hb
      rw [byte_toNat (by omega)] at this
      have e : (0#8).toNat = 0 := rfl
      omega

theorem reads_string (s : DxbReader) (v : Str) (h : Str.Latin v) :
    Reads (zstring v) readString s v s := by
  intro rest off
  refine ⟨off + v.length + 1, ?_⟩
  unfold readString
  dsimp only
  rw [readStringBin_latin v h]

theorem reads_xy {s : DxbReader} (h : s.isIntegerMode = false) (p : Point) :
    Reads (xy p) readXy s p.planar s := by
  have := (reads_n h p.x).bind (k := fun x => do let y ← readN; pure (⟨x, y, .zero⟩ : Point))
    ((reads_n h p.y).bind (.pure _ _))
  rw [List.append_nil] at this
  exact this

theorem reads_xyz {s : DxbReader} (h : s.isIntegerMode = false) (p : Point) :
    Reads (xyz p) readXyz s p.single s := by
  have := (reads_n h p.x).bind
    (k := fun x => do let y ← readN; let z ← readN; pure (⟨x, y, z⟩ : Point))
    ((reads_n h p.y).bind ((reads_n h p.z).bind (.pure _ _)))
  rw [List.append_nil, ← List.append_assoc] at this
  exact this

/-- The entity that `wrap_common_values` makes. -/
def wrapped (s : DxbReader) (k : EName) (r : Rec k.decls) : Flat :=
  ⟨k, 0, ⟨(r.set 7 (s.currentColor : I16)).set 3 (s.layerName : Str), [], []⟩⟩

theorem reads_wrap (s : DxbReader) (k : EName) (r : Rec k.decls) :
    Reads [] (wrap k r) s (wrapped s k r) s := fun _ off => ⟨off, rfl⟩

/-! ### The loop -/

/-- Given these bytes, the loop gets from one state to another. -/
def Loops (bs : List Byte) (s : DxbReader) (found : Found) (s' : DxbReader) (found' : Found) : Prop :=
  ∃ k, k ≤ bs.length ∧ ∀ rest off fuel, ∃ off',
    loop (fuel + k) found { s with bytes := bs ++ rest, offset := off } =
      loop fuel found' { s' with bytes := rest, offset := off' }

theorem Loops.nil (s : DxbReader) (found : Found) : Loops [] s found s found :=
  ⟨0, Nat.le_refl _, fun _ off _ => ⟨off, rfl⟩⟩

theorem Loops.trans {bs cs : List Byte} {s s1 s2 : DxbReader} {f f1 f2 : Found}
    (h : Loops bs s f s1 f1) (h' : Loops cs s1 f1 s2 f2) : Loops (bs ++ cs) s f s2 f2 := by
  obtain ⟨k, hk, h⟩ := h
  obtain ⟨l, hl, h'⟩ := h'
  refine ⟨l + k, by rw [List.length_append]; omega, fun rest off fuel => ?_⟩
  obtain ⟨o1, e1⟩ := h (cs ++ rest) off (fuel + l)
  obtain ⟨o2, e2⟩ := h' rest o1 fuel
  refine ⟨o2, ?_⟩
  rw [← Nat.add_assoc, List.append_assoc, e1, e2]

/-- One byte. -/
theorem word_item {i : Nat} (hi : i < 256) (s : DxbReader) (bs rest : List Byte) (off : Nat) :
    word 1 { s with bytes := item i ++ bs ++ rest, offset := off } =
      .ok (i, { s with bytes := bs ++ rest, offset := off + 1 }) := by
  rw [List.append_assoc, word_bytes (size := 1) (bs := item i) rfl]
  have : leVal (item i) = i := by
    change (byte i).toNat + 256 * 0 = i
    rw [byte_toNat hi]; omega
  rw [this]

/-- An item that is an entity. -/
theorem Loops.entity {i : Nat} {m : DxbM Flat} {bs : List Byte} {s s' : DxbReader} {e : Flat}
    (found : Found) (hi : i < 256) (h0 : i ≠ 0) (hm : readEntity? i = some m)
    (h : Reads bs m s e s') :
    Loops (item i ++ bs) s found s' { found with entities := found.entities ++ [e] } := by
  refine ⟨1, by simp [item], fun rest off fuel => ?_⟩
  obtain ⟨o, h⟩ := h rest (off + 1)
  refine ⟨o, ?_⟩
  rw [loop, run_get, run_bind (word_item hi s bs rest off), if_neg h0, hm]
  exact run_bind h

/-- Another item. -/
theorem Loops.other {i : Nat} {m : DxbM Found} {bs : List Byte} {s s' : DxbReader}
    {found found' : Found} (hi : i < 256) (h0 : i ≠ 0) (he : readEntity? i = none)
    (hm : readOther? i found = some m) (h : Reads bs m s found' s') :
    Loops (item i ++ bs) s found s' found' := by
  refine ⟨1, by simp [item], fun rest off fuel => ?_⟩
  obtain ⟨o, h⟩ := h rest (off + 1)
  refine ⟨o, ?_⟩
  rw [loop, run_get, run_bind (word_item hi s bs rest off), if_neg h0, he]
  dsimp only
  rw [hm]
  exact run_bind h

/-! ### Entities -/

/-- The reader is in the mode of the writer. -/
structure Ready (s : DxbReader) (layer : Str) (color : I16) : Prop where
  mode : s.isIntegerMode = false
  scale : s.scaleFactor = .unit
  layer : s.layerName = layer
  color : s.currentColor = color

/-- An entity with a layer and a colour. -/
def flat (layer : Str) (color : I16) (k : EName) (r : Rec k.decls) : Flat :=
  ⟨k, 0, ⟨(r.set 7 (color : I16)).set 3 (layer : Str), [], []⟩⟩

theorem Ready.wrapped {s : DxbReader} {l : Str} {c : I16} (h : Ready s l c) (k : EName)
    (r : Rec k.decls) : wrapped s k r = flat l c k r := by
  unfold Dxb.wrapped flat
  rw [h.layer, h.color]

/-- The vertex that is read. -/
def flatVertex (l : Str) (c : I16) (r : Rec EName.vertex.decls) : Flat :=
  flat l c .vertex (newVertex (Point.planar (r 18)))

/-- What is read of an entity. -/
def flats (l : Str) (c : I16) : Entity → List Flat
  | ⟨⟨.arc, _, x⟩, _⟩ => [flat l c .arc (newArc (Point.planar (x.fields 19))
      (F32.single (x.fields 20)) (F32.single (x.fields 22)) (F32.single (x.fields 23)))]
  | ⟨⟨.circle, _, x⟩, _⟩ => [flat l c .circle (newCircle (Point.planar (x.fields 19))
      (F32.single (x.fields 20)))]
  | ⟨⟨.face3D, _, x⟩, _⟩ => [flat l c .face3D (newFace (Point.single (x.fields 18))
      (Point.single (x.fields 19)) (Point.single (x.fields 20)) (Point.single (x.fields 21)))]
  | ⟨⟨.line, _, x⟩, _⟩ => [flat l c .line (newLine (Point.single (x.fields 19))
      (Point.single (x.fields 20)))]
  | ⟨⟨.modelPoint, _, x⟩, _⟩ => [flat l c .modelPoint (newPoint (Point.planar (x.fields 18)))]
  | ⟨⟨.polyline, _, x⟩, e⟩ =>
    flat l c .polyline (newPolyline (getFlag (x.fields 21 : I32) 1#32)) ::
    e.verts.map (fun v => flatVertex l c v.fields) ++ [flat l c .seqend (Rec.dflt _)]
  | ⟨⟨.seqend, _, _⟩, _⟩ => [flat l c .seqend (Rec.dflt _)]
  | ⟨⟨.solid, _, x⟩, _⟩ => [flat l c .solid (newSolid (Point.planar (x.fields 18))
      (Point.planar (x.fields 19)) (Point.planar (x.fields 20)) (Point.planar (x.fields 21)))]
  | ⟨⟨.trace, _, x⟩, _⟩ => [flat l c .trace (newTrace (Point.planar (x.fields 18))
      (Point.planar (x.fields 19)) (Point.planar (x.fields 20)) (Point.planar (x.fields 21)))]
  | ⟨⟨.vertex, _, x⟩, _⟩ => [flatVertex l c x.fields]
  | _ => []

section

variable {s : DxbReader} {l : Str} {c : I16}

theorem reads_arc (h : Ready s l c) (p : Point) (r a b : F64) :
    Reads (xy p ++ n r ++ n a ++ n b) readArc s
      (flat l c .arc (newArc p.planar (F32.single r) (F32.single a) (F32.single b))) s := by
  have := (reads_xy h.mode p).bind (k := fun p => do
    let r ← readN; let a ← readA; let b ← readA; wrap .arc (newArc p r a b))
    ((reads_n h.mode r).bind ((reads_a h.mode a).bind ((reads_a h.mode b).bind (reads_wrap s _ _))))
  rw [h.wrapped] at this
  simp only [List.append_assoc, List.append_nil] at this ⊢
  exact this

theorem reads_circle (h : Ready s l c) (p : Point) (r : F64) :
    Reads (xy p ++ n r) readCircle s (flat l c .circle (newCircle p.planar (F32.single r))) s := by
  have := (reads_xy h.mode p).bind (k := fun p => do
    let r ← readN; wrap .circle (newCircle p r))
    ((reads_n h.mode r).bind (reads_wrap s _ _))
  rw [h.wrapped] at this
  simp only [List.append_assoc, List.append_nil] at this ⊢
  exact this

theorem reads_face (h : Ready s l c) (p1 p2 p3 p4 : Point) :
    Reads (xyz p1 ++ xyz p2 ++ xyz p3 ++ xyz p4) readFace s
      (flat l c .face3D (newFace p1.single p2.single p3.single p4.single)) s := by
  have := (reads_xyz h.mode p1).bind (k := fun p1 => do
    let p2 ← readXyz; let p3 ← readXyz; let p4 ← readXyz; wrap .face3D (newFace p1 p2 p3 p4))
    ((reads_xyz h.mode p2).bind ((reads_xyz h.mode p3).bind ((reads_xyz h.mode p4).bind
      (reads_wrap s _ _))))
  rw [h.wrapped] at this
  simp only [List.append_assoc, List.append_nil] at this ⊢
  exact this

theorem reads_line (h : Ready s l c) (p1 p2 : Point) : ∃ s', Ready s' l c ∧
    Reads (xyz p1 ++ xyz p2) readLine s (flat l c .line (newLine p1.single p2.single)) s' := by
  refine ⟨{ s with lastLinePoint := p2.single }, ⟨h.1, h.2, h.3, h.4⟩, ?_⟩
  have := (reads_xyz h.mode p1).bind (k := fun p1 => do
    let p2 ← readXyz
    modify fun s => { s with lastLinePoint := p2 }
    mkLine p1 p2)
    ((reads_xyz h.mode p2).bind (Reads.step (fun _ _ _ => rfl)
      (reads_wrap { s with lastLinePoint := p2.single } .line (newLine p1.single p2.single))))
  rw [Ready.wrapped (s := { s with lastLinePoint := p2.single }) ⟨h.1, h.2, h.3, h.4⟩] at this
  simp only [List.append_assoc, List.append_nil] at this ⊢
  exact this

theorem reads_point (h : Ready s l c) (p : Point) :
    Reads (xy p) readPoint s (flat l c .modelPoint (newPoint p.planar)) s := by
  have := (reads_xy h.mode p).bind (k := fun p => wrap .modelPoint (newPoint p))
    (reads_wrap s _ _)
  rw [h.wrapped] at this
  simp only [List.append_nil] at this ⊢
  exact this

theorem reads_vertex (h : Ready s l c) (p : Point) :
    Reads (xy p) readVertex s (flat l c .vertex (newVertex p.planar)) s := by
  have := (reads_xy h.mode p).bind (k := fun p => wrap .vertex (newVertex p))
    (reads_wrap s _ _)
  rw [h.wrapped] at this
  simp only [List.append_nil] at this ⊢
  exact this

theorem reads_seqend (h : Ready s l c) :
    Reads [] readSeqend s (flat l c .seqend (Rec.dflt _)) s := by
  have := reads_wrap s .seqend (Rec.dflt _)
  rw [h.wrapped] at this
  exact this

theorem reads_polyline (h : Ready s l c) (b : Bool) :
    Reads (w (if b then 1#16 else 0#16)) readPolyline s (flat l c .polyline (newPolyline b)) s := by
  have := (reads_w h.scale (if b then 1#16 else 0#16)).bind
    (k := fun v => wrap .polyline (newPolyline (v != 0#32))) (reads_wrap s _ _)
  rw [h.wrapped] at this
  rw [List.append_nil] at this
  cases b <;> exact this

theorem reads_solid (h : Ready s l c) (p1 p2 p3 p4 : Point) :
    Reads (xy p1 ++ xy p2 ++ xy p3 ++ xy p4) readSolid s
      (flat l c .solid (newSolid p1.planar p2.planar p3.planar p4.planar)) s := by
  have := (reads_xy h.mode p1).bind (k := fun p1 => do
    let p2 ← readXy; let p3 ← readXy; let p4 ← readXy; wrap .solid (newSolid p1 p2 p3 p4))
    ((reads_xy h.mode p2).bind ((reads_xy h.mode p3).bind ((reads_xy h.mode p4).bind
      (reads_wrap s _ _))))
  rw [h.wrapped] at this
  simp only [List.append_assoc, List.append_nil] at this ⊢
  exact this

theorem reads_trace (h : Ready s l c) (p1 p2 p3 p4 : Point) : ∃ s', Ready s' l c ∧
    Reads (xy p1 ++ xy p2 ++ xy p3 ++ xy p4) readTrace s
      (flat l c .trace (newTrace p1.planar p2.planar p3.planar p4.planar)) s' := by
  let s' := { s with
    lastTraceP3 := p3.planar
    lastTraceP4 := p4.planar }
  have h' : Ready s' l c := ⟨h.1, h.2, h.3, h.4⟩
  refine ⟨s', h', ?_⟩
  have := (reads_xy h.mode p1).bind (k := fun p1 => do
    let p2 ← readXy; let p3 ← readXy; let p4 ← readXy; mkTrace p1 p2 p3 p4)
    ((reads_xy h.mode p2).bind ((reads_xy h.mode p3).bind ((reads_xy h.mode p4).bind
      (Reads.step (fun _ _ _ => rfl) (reads_wrap s' .trace
        (newTrace p1.planar p2.planar p3.planar p4.planar))))))
  rw [h'.wrapped] at this
  simp only [List.append_assoc, List.append_nil] at this ⊢
  exact this

theorem loops_vertex (h : Ready s l c) (r : Rec EName.vertex.decls) (found : Found) :
    Loops (vertex r) s found s
      { found with entities := found.entities ++ [flatVertex l c r] } :=
  Loops.entity (i := 20) found (by omega) (by omega) rfl (reads_vertex h (r 18))

theorem loops_vertices (h : Ready s l c) (vs : List Vert) (found : Found) :
    Loops (vs.flatMap fun v => vertex v.fields) s found s
      { found with entities := found.entities ++ vs.map fun v => flatVertex l c v.fields } := by
  induction vs generalizing found with
  | nil =>
    rw [List.map_nil, List.append_nil]
    exact .nil _ _
  | cons v vs ih =>
    rw [List.flatMap_cons, List.map_cons]
    have := (loops_vertex h v.fields found).trans (ih _)
    simp only [List.append_assoc, List.singleton_append] at this ⊢
    exact this

theorem loops_entity (h : Ready s l c) (e : Entity) (found : Found) : ∃ s', Ready s' l c ∧
    Loops (entity e) s found s' { found with entities := found.entities ++ flats l c e } := by
  have none : Loops [] s found s { found with entities := found.entities ++ [] } := by
    rw [List.append_nil]
    exact .nil _ _
  obtain ⟨⟨k, i, x⟩, y⟩ := e
  cases k
  case arc =>
    refine ⟨s, h, ?_⟩
    have := Loops.entity (i := 8) found (by omega) (by omega) rfl
      (reads_arc h (x.fields 19) (x.fields 20) (x.fields 22) (x.fields 23))
    simp only [← List.append_assoc] at this ⊢
    exact this
  case circle =>
    refine ⟨s, h, ?_⟩
    have := Loops.entity (i := 3) found (by omega) (by omega) rfl
      (reads_circle h (x.fields 19) (x.fields 20))
    simp only [← List.append_assoc] at this ⊢
    exact this
  case face3D =>
    refine ⟨s, h, ?_⟩
    have := Loops.entity (i := 22) found (by omega) (by omega) rfl
      (reads_face h (x.fields 18) (x.fields 19) (x.fields 20) (x.fields 21))
    simp only [← List.append_assoc] at this ⊢
    exact this
  case line =>
    obtain ⟨s', h', hr⟩ := reads_line h (x.fields 19) (x.fields 20)
    refine ⟨s', h', ?_⟩
    have := Loops.entity (i := 1) found (by omega) (by omega) rfl hr
    simp only [← List.append_assoc] at this ⊢
    exact this
  case modelPoint =>
    exact ⟨s, h, Loops.entity (i := 2) found (by omega) (by omega) rfl (reads_point h (x.fields 18))⟩
  case polyline =>
    refine ⟨s, h, ?_⟩
    have h1 := Loops.entity (i := 19) found (by omega) (by omega) rfl
      (reads_polyline h (getFlag (x.fields 21 : I32) 1#32))
    have h2 := h1.trans (loops_vertices h y.verts _)
    have h3 := h2.trans (Loops.entity (i := 17) _ (by omega) (by omega) rfl (reads_seqend h))
    simp only [List.append_assoc, List.singleton_append, List.append_nil] at h3 ⊢
    exact h3
  case seqend =>
    have := Loops.entity (i := 17) found (by omega) (by omega) rfl (reads_seqend h)
    exact ⟨s, h, this⟩
  case solid =>
    refine ⟨s, h, ?_⟩
    have := Loops.entity (i := 11) found (by omega) (by omega) rfl
      (reads_solid h (x.fields 18) (x.fields 19) (x.fields 20) (x.fields 21))
    simp only [← List.append_assoc] at this ⊢
    exact this
  case trace =>
    obtain ⟨s', h', hr⟩ := reads_trace h (x.fields 18) (x.fields 19) (x.fields 20) (x.fields 21)
    refine ⟨s', h', ?_⟩
    have := Loops.entity (i := 9) found (by omega) (by omega) rfl hr
    simp only [← List.append_assoc] at this ⊢
    exact this
  case vertex => exact ⟨s, h, loops_vertex h x.fields found⟩
  all_goals exact ⟨s, h, none⟩

theorem narrow_word (v : I16) : (v.signExtend 32).setWidth 16 = v := by
  ext i hi
  simp [BitVec.getElem_setWidth, BitVec.getLsbD_signExtend, hi]
  omega

/-- A new layer. -/
theorem loops_layer (h : Ready s l c) (l' : Str) (hl : Str.Latin l') (found : Found) :
    ∃ s', Ready s' l' c ∧ Loops (item 129 ++ zstring l') s found s' found := by
  refine ⟨{ s with layerName := l' }, ⟨h.1, h.2, rfl, h.4⟩, ?_⟩
  have := (reads_string s l' hl).bind (k := fun v => do
    modify fun s => { s with layerName := v }
    return found) (Reads.step (fun _ _ _ => rfl) (.pure found { s with layerName := l' }))
  rw [List.append_nil] at this
  exact Loops.other (by omega) (by omega) rfl rfl this

/-- A new colour. -/
theorem loops_color (hs : s.scaleFactor = .unit) (c' : I16) (found : Found) :
    Loops (item 136 ++ w c') s found { s with currentColor := c' } found := by
  have := (reads_w hs c').bind (k := fun v => do
    modify fun s => { s with currentColor := v.setWidth 16 }
    return found) (Reads.step (fun _ _ _ => rfl)
      (.pure found { s with currentColor := (c'.signExtend 32).setWidth 16 }))
  rw [List.append_nil, narrow_word] at this
  exact Loops.other (by omega) (by omega) rfl rfl this

/-- The switch to floats. -/
theorem loops_mode (hs : s.scaleFactor = .unit) (found : Found) :
    Loops (item 135 ++ w 1#16) s found { s with isIntegerMode := false } found := by
  have := (reads_w hs 1#16).bind (k := fun v => do
    modify fun s => { s with isIntegerMode := v == 0#32 }
    return found) (Reads.step (fun _ _ _ => rfl)
      (.pure found { s with isIntegerMode := false }))
  rw [List.append_nil] at this
  exact Loops.other (by omega) (by omega) rfl rfl this

theorem loops_entities (es : List Entity) (prev : Option Str) (h : Ready s l c)
    (hp : ∀ l', prev = some l' → l = l') (hl : ∀ e ∈ es, Str.Latin e.layer) (found : Found) :
    ∃ s', Loops (entities prev c es) s found s'
      { found with entities := found.entities ++ es.flatMap fun e => flats e.layer (color e) e } := by
  induction es generalizing s l c prev found with
  | nil =>
    refine ⟨s, ?_⟩
    rw [List.flatMap_nil, List.append_nil]
    exact .nil _ _
  | cons e es ih =>
    have h1 : ∃ s', Ready s' e.layer c ∧
        Loops (if prev = some e.layer then [] else item 129 ++ zstring e.layer) s found s' found := by
      split
      · rename_i hq
        have := hp _ hq
        subst this
        exact ⟨s, h, .nil _ _⟩
      · exact loops_layer h e.layer (hl e List.mem_cons_self) found
    obtain ⟨s1, r1, l1⟩ := h1
    have h2 : ∃ s', Ready s' e.layer (color e) ∧
        Loops (if color e = c then [] else item 136 ++ w (color e)) s1 found s' found := by
      split
      · rename_i hq
        exact ⟨s1, hq ▸ r1, .nil _ _⟩
      · exact ⟨{ s1 with currentColor := color e }, ⟨r1.1, r1.2, r1.3, rfl⟩,
          loops_color r1.scale (color e) found⟩
    obtain ⟨s2, r2, l2⟩ := h2
    obtain ⟨s3, r3, l3⟩ := loops_entity r2 e found
    obtain ⟨s4, l4⟩ := ih (some e.layer) r3 (fun l' hq => Option.some.inj hq)
      (fun x hx => hl x (List.mem_cons_of_mem _ hx))
      { found with entities := found.entities ++ flats e.layer (color e) e }
    refine ⟨s4, ?_⟩
    have := ((l1.trans l2).trans l3).trans l4
    rw [entities, List.flatMap_cons, ← List.append_assoc found.entities]
    exact this

end

/-- The end of the file. -/
theorem loop_end (s : DxbReader) (found : Found) (fuel off : Nat) (rest : List Byte) :
    ∃ s', loop (fuel + 1) found { s with bytes := byte 0 :: rest, offset := off } =
      .ok (found, s') := by
  refine ⟨{ s with bytes := rest, offset := off + 1 }, ?_⟩
  have := word_item (i := 0) (by omega) s [] rest off
  rw [loop, run_get]
  exact (run_bind this).trans rfl

/-- The file after the sentinel. -/
theorem items_start (cs : List Byte) : items (reader ([byte 0x1A, byte 0] ++ cs)) =
    loop (cs.length + 1) ⟨none, []⟩ { reader [] with bytes := cs, offset := 2 } := by
  have hw1 := word_item (i := 0x1A) (by omega) (reader []) [] ([byte 0] ++ cs) 0
  have hw2 := word_item (i := 0) (by omega) (reader []) [] cs 1
  have h1 : expect (byte 0x1A) 16 (reader ([byte 0x1A, byte 0] ++ cs)) =
      .ok ((), { reader [] with bytes := [byte 0] ++ cs, offset := 1 }) := (run_bind hw1).trans rfl
  have h2 : expect (byte 0) 17 { reader [] with bytes := [byte 0] ++ cs, offset := 1 } =
      .ok ((), { reader [] with bytes := cs, offset := 2 }) := (run_bind hw2).trans rfl
  unfold items
  rw [run_bind h1, run_bind h2, run_get]
  rfl

/-- The whole file after the sentinel. -/
theorem items_of_loops {bs : List Byte} {s' : DxbReader} {found : Found}
    (h : Loops bs (reader []) ⟨none, []⟩ s' found) (rest : List Byte) :
    ∃ s'', items (reader ([byte 0x1A, byte 0] ++ (bs ++ byte 0 :: rest))) = .ok (found, s'') := by
  obtain ⟨k, hk, h⟩ := h
  rw [items_start]
  have hlen : (bs ++ byte 0 :: rest).length + 1 = bs.length - k + rest.length + 1 + 1 + k := by
    rw [List.length_append, List.length_cons]
    omega
  rw [hlen]
  obtain ⟨off, l5⟩ := h (byte 0 :: rest) 2 (bs.length - k + rest.length + 1 + 1)
  obtain ⟨s'', l6⟩ := loop_end s' found (bs.length - k + rest.length + 1) off rest
  exact ⟨s'', l5.trans l6⟩

/-- Reading what was written after the sentinel. -/
theorem items_written (es : List Entity) (hl : ∀ e ∈ es, Str.Latin e.layer) (rest : List Byte) :
    ∃ s', items (reader ([byte 0x1A, byte 0] ++ (item 135 ++ w 1#16 ++ item 136 ++ w 0#16 ++
      entities none 0#16 es ++ byte 0 :: rest))) =
      .ok (⟨none, es.flatMap fun e => flats e.layer (color e) e⟩, s') := by
  have l1 := loops_mode (s := reader []) rfl ⟨none, []⟩
  have l2 := l1.trans (loops_color rfl 0#16 ⟨none, []⟩)
  obtain ⟨s', l3⟩ := loops_entities (l := str!"0") (c := 0#16) es none
    (s := { reader [] with isIntegerMode := false, currentColor := 0#16 })
    ⟨rfl, rfl, rfl, rfl⟩ (by simp) hl ⟨none, []⟩
  have := items_of_loops (l2.trans l3) rest
  rw [← List.append_assoc (item 135 ++ w 1#16)] at this
  exact this

/-! ### Gathering -/

/-- The vertices that are gathered. -/
def vert (v : Vert) : Vert := ⟨newVertex (Point.planar (v.fields 18)), autoReplaceHandle⟩

theorem bare_vertex (l : Str) (c : I16) (p : Point) :
    Rec.bare (ds := EName.vertex.kind.spec) ((newVertex p).set 7 (c : I16) |>.set 3 (l : Str)) = newVertex p := by
  funext i
  unfold Rec.bare
  split
  · rename_i h
    exact (Rec.set_ne (Rec.dflt EName.vertex.decls) (i := 18) p (by omega)).symm
  · rename_i h
    exact (Rec.set_ne (ds := EName.vertex.decls) _ (i := 3) l (by omega)).trans
      (Rec.set_ne (newVertex p) (i := 7) c (by omega))

theorem gather_vertices (l : Str) (c : I16) (vs : List Vert) (x : Flat) (hx : x.kind ≠ .vertex)
    (rest : List Flat) :
    gatherVerts ((vs.map fun v => flatVertex l c v.fields) ++ x :: rest) = (vs.map vert, x :: rest) := by
  induction vs with
  | nil =>
    obtain ⟨k, i, e⟩ := x
    cases k
    case vertex => exact absurd rfl hx
    all_goals rfl
  | cons v vs ih =>
    rw [List.map_cons, List.cons_append]
    change (Vert.mk (Rec.bare _) autoReplaceHandle :: (gatherVerts _).1, (gatherVerts _).2) = _
    rw [ih]
    exact congrArg (fun r => (Vert.mk r autoReplaceHandle :: vs.map vert, x :: rest))
      (bare_vertex l c _)

/-- What is loaded of an entity. -/
def loaded (e : Entity) : Option Entity :=
  match e with
  | ⟨⟨.polyline, _, x⟩, c⟩ => some { e.plain .polyline
      (newPolyline (getFlag (x.fields 21 : I32) 1#32)) with
      extra := { Extra.dflt with verts := c.verts.map vert } }
  | e => e.inDxb

theorem collect_one (e : Entity) (rest : List Flat) (out : List Entity)
    (ih : ∀ f, rest.length < f → collect f rest = .ok out) (fuel : Nat)
    (h : (flats e.layer (color e) e).length + rest.length < fuel) :
    collect fuel (flats e.layer (color e) e ++ rest) = .ok ((loaded e).toList ++ out) := by
  obtain ⟨f, rfl⟩ : ∃ f, fuel = f + 1 := ⟨fuel - 1, by omega⟩
  obtain ⟨⟨k, i, x⟩, y⟩ := e
  cases k
  case polyline =>
    have hg := gather_vertices (Entity.layer ⟨⟨.polyline, i, x⟩, y⟩) (color ⟨⟨.polyline, i, x⟩, y⟩)
      y.verts (flat (Entity.layer ⟨⟨.polyline, i, x⟩, y⟩) (color ⟨⟨.polyline, i, x⟩, y⟩) .seqend
        (Rec.dflt _)) (fun h => nomatch h) rest
    have hr := ih f (by simp only [flats, List.length_cons, List.length_append] at h; omega)
    simp only [flats, List.cons_append, List.append_assoc, List.nil_append] at hg ⊢
    change (do
      let (vs, xs) := gatherVerts _
      let rest ← collect f (swallowSeqend xs)
      return (Entity.mk _ { Extra.dflt with verts := vs }) :: rest) = _
    rw [hg]
    change (do
      let rest ← collect f rest
      return (Entity.mk _ { Extra.dflt with verts := y.verts.map vert }) :: rest) = _
    rw [hr]
    rfl
  case arc | circle | face3D | line | modelPoint | seqend | solid | trace | vertex =>
    have hr := ih f (by simp only [flats, List.length_cons, List.length_nil] at h; omega)
    change (do
      let rest ← collect f rest
      return _ :: rest) = _
    rw [hr]
    rfl
  all_goals exact ih (f + 1) (by simp only [flats, List.length_nil] at h; omega)

theorem collect_written (es : List Entity) (fuel : Nat)
    (h : (es.flatMap fun e => flats e.layer (color e) e).length < fuel) :
    collect fuel (es.flatMap fun e => flats e.layer (color e) e) = .ok (es.filterMap loaded) := by
  induction es generalizing fuel with
  | nil =>
    obtain ⟨f, rfl⟩ : ∃ f, fuel = f + 1 := ⟨fuel - 1, by simp at h; omega⟩
    rfl
  | cons e es ih =>
    rw [List.flatMap_cons] at h ⊢
    rw [List.length_append] at h
    rw [collect_one e _ _ ih fuel h, List.filterMap_cons]
    cases loaded e <;> rfl

end Dxb

end Dxf
