import Verif.Model.BinCodec
import Verif.Model.Single
import Verif.Model.File

/-! The DXB format: src/dxb_reader.rs, src/dxb_writer.rs and src/dxb_item_type.rs. -/

namespace Dxf

namespace Dxb

/-! ### Writing -/

/-- Models `write_item_type`, src/dxb_writer.rs:221-224, with the numbers of
src/dxb_item_type.rs:5-28. -/
def item (n : Nat) : List Byte := [byte n]

/-- Models `write_n`, src/dxb_writer.rs:213-216. -/
def n (d : F64) : List Byte := leBytes 4 (F32.narrow d).toNat

/-- Models `write_w`, src/dxb_writer.rs:217-220. -/
def w (s : I16) : List Byte := leBytes 2 s.toNat

/-- Models `write_string`, src/dxb_writer.rs:202-207: `c as u8` truncates. -/
def string (s : Str) : List Byte := s.map fun c => byte c.toNat

/-- Models `write_null_terminated_string`, src/dxb_writer.rs:208-212. -/
def zstring (s : Str) : List Byte := string s ++ [byte 0]

/-- The coordinates x and y. -/
def xy (p : Point) : List Byte := n p.x ++ n p.y

/-- The coordinates x, y and z. -/
def xyz (p : Point) : List Byte := n p.x ++ n p.y ++ n p.z

/-- Models `write_vertex`, src/dxb_writer.rs:196-201. -/
def vertex (r : Rec EName.vertex.decls) : List Byte := item 20 ++ xy (r 18)

/-- Models `write_entity`, src/dxb_writer.rs:75-110, with the writers of each kind of entity,
src/dxb_writer.rs:111-201. -/
def entity : Entity → List Byte
  | ⟨⟨.arc, _, e⟩, _⟩ => item 8 ++ xy (e.fields 19) ++ n (e.fields 20) ++ n (e.fields 22) ++
    n (e.fields 23)
  | ⟨⟨.circle, _, e⟩, _⟩ => item 3 ++ xy (e.fields 19) ++ n (e.fields 20)
  | ⟨⟨.face3D, _, e⟩, _⟩ => item 22 ++ xyz (e.fields 18) ++ xyz (e.fields 19) ++
    xyz (e.fields 20) ++ xyz (e.fields 21)
  | ⟨⟨.line, _, e⟩, _⟩ => item 1 ++ xyz (e.fields 19) ++ xyz (e.fields 20)
  | ⟨⟨.modelPoint, _, e⟩, _⟩ => item 2 ++ xy (e.fields 18)
  | ⟨⟨.polyline, _, e⟩, x⟩ =>
    item 19 ++ w (if getFlag (e.fields 21 : I32) 1#32 then 1#16 else 0#16) ++
    x.verts.flatMap (fun v => vertex v.fields) ++ item 17
  | ⟨⟨.seqend, _, _⟩, _⟩ => item 17
  | ⟨⟨.solid, _, e⟩, _⟩ => item 11 ++ xy (e.fields 18) ++ xy (e.fields 19) ++ xy (e.fields 20) ++
    xy (e.fields 21)
  | ⟨⟨.trace, _, e⟩, _⟩ => item 9 ++ xy (e.fields 18) ++ xy (e.fields 19) ++ xy (e.fields 20) ++
    xy (e.fields 21)
  | ⟨⟨.vertex, _, e⟩, _⟩ => vertex e.fields
  | _ => []

/-- The field `common.color`. -/
def color (e : Entity) : I16 := (e.entry.fields.common 7 : I16)

/-- Models the loops over groups of entities, src/dxb_writer.rs:48-63.  `chunk_by` makes a group of
consecutive entities of the same layer; `layer` is the layer of the group so far, and `last` is
`last_color`. -/
def entities : Option Str → I16 → List Entity → List Byte
  | _, _, [] => []
  | layer, last, e :: es =>
    (if layer = some e.layer then [] else item 129 ++ zstring e.layer) ++
    (if color e = last then [] else item 136 ++ w (color e)) ++
    entity e ++ entities (some e.layer) (color e) es

/-- The sentinel, src/dxb_writer.rs:22-24. -/
def sentinel : List Byte := string str!"AutoCAD DXB 1.0\r\n" ++ [byte 0x1A, byte 0]

end Dxb

/-- Models `DxbWriter::write`, src/dxb_writer.rs:20-68, for `Drawing::save_dxb`,
src/drawing.rs:218-224. -/
def Drawing.saveDxb {Img : Type} (d : Drawing Img) : List Byte :=
  let mode := Dxb.item 135 ++ Dxb.w 1#16 ++ Dxb.item 136 ++ Dxb.w 0#16
  match d.entities, d.blocks with
  | _ :: _, b :: _ =>
    Dxb.sentinel ++ Dxb.item 132 ++ Dxb.xy (b.entry.fields 5) ++ mode ++
    b.entities.flatMap Dxb.entity ++ [byte 0]
  | es, _ => Dxb.sentinel ++ mode ++ Dxb.entities none 0#16 es ++ [byte 0]

/-! ### Reading -/

/-- Models `DxbReader`, src/dxb_reader.rs:12-22.  `bytes` is what can be read before the next error
or the end of the input; `later` is what follows each error. -/
structure DxbReader where
  bytes : List Byte
  later : List (List Byte)
  isIntegerMode : Bool
  layerName : Str
  scaleFactor : F64
  currentColor : I16
  lastLinePoint : Point
  lastTraceP3 : Point
  lastTraceP4 : Point
  offset : Nat

/-- `Point::origin()`. -/
def Point.origin : Point := ⟨.zero, .zero, .zero⟩

/-- A function of the reader. -/
abbrev DxbM := StateT DxbReader (Except DxfErr)

namespace Dxb

/-! ### New entities -/

/-- Models `Arc::new`, src/entity.rs:16-26. -/
def newArc (center : Point) (radius start stop : F64) : Rec EName.arc.decls :=
  ((((Rec.dflt EName.arc.decls).set 19 center).set 20 radius).set 22 start).set 23 stop

/-- Models `Circle::new`, src/entity.rs:31-39. -/
def newCircle (center : Point) (radius : F64) : Rec EName.circle.decls :=
  ((Rec.dflt EName.circle.decls).set 19 center).set 20 radius

/-- Models `Face3D::new`, src/entity.rs:70-85. -/
def newFace (p1 p2 p3 p4 : Point) : Rec EName.face3D.decls :=
  ((((Rec.dflt EName.face3D.decls).set 18 p1).set 19 p2).set 20 p3).set 21 p4

/-- Models `Line::new`, src/entity.rs:106-114. -/
def newLine (p1 p2 : Point) : Rec EName.line.decls :=
  ((Rec.dflt EName.line.decls).set 19 p1).set 20 p2

/-- Models `ModelPoint::new`, src/entity.rs:134-141. -/
def newPoint (p : Point) : Rec EName.modelPoint.decls := (Rec.dflt EName.modelPoint.decls).set 18 p

/-- `Polyline::default()` with `set_is_closed`. -/
def newPolyline (closed : Bool) : Rec EName.polyline.decls :=
  (Rec.dflt EName.polyline.decls).set 21 (setFlag 0#32 1#32 closed : I32)

/-- Models `Solid::new`, src/entity.rs:183-198. -/
def newSolid (p1 p2 p3 p4 : Point) : Rec EName.solid.decls :=
  ((((Rec.dflt EName.solid.decls).set 18 p1).set 19 p2).set 20 p3).set 21 p4

/-- Models `Trace::new`, src/entity.rs:203-218. -/
def newTrace (p1 p2 p3 p4 : Point) : Rec EName.trace.decls :=
  ((((Rec.dflt EName.trace.decls).set 18 p1).set 19 p2).set 20 p3).set 21 p4

/-- Models `Vertex::new`, src/entity.rs:223-230. -/
def newVertex (p : Point) : Rec EName.vertex.decls := (Rec.dflt EName.vertex.decls).set 18 p

/-- Models `DxbReader::new`, src/dxb_reader.rs:25-37. -/
def reader (bytes : List Byte) (later : List (List Byte) := []) : DxbReader where
  bytes := bytes
  later := later
  isIntegerMode := true
  layerName := str!"0"
  scaleFactor := .unit
  currentColor := 256#16
  lastLinePoint := .origin
  lastTraceP3 := .origin
  lastTraceP4 := .origin
  offset := 0

/-- Ends with an error. -/
def fail {α : Type} (e : DxfErr) : DxbM α := fun _ => .error e

/-- The error of reading when there are not enough bytes: `try_option_io_result_into_err!`,
src/helper_functions.rs:380-388, and `try_from_option_io_result!`. -/
def _root_.Dxf.DxbReader.short (s : DxbReader) : DxfErr :=
  match s.later with
  | [] => .unexpectedEndOfInput
  | _ :: _ => .ioError

/-- Reads some bytes as a number (`read_u8`, `read_i16`, `read_i32`, `read_f32`,
src/helper_functions.rs:336-346, 440-473), and advances the offset. -/
def word (size : Nat) : DxbM Nat := fun s =>
  if size ≤ s.bytes.length then
    .ok (leVal (s.bytes.take size), { s with
      bytes := s.bytes.drop size
      offset := s.offset + size })
  else .error s.short

/-- `f64::from(i)` for the two's complement of a word. -/
def ofWord (size v : Nat) : F64 := .ofInt (BitVec.ofNat size v).toInt

/-- Models `read_a`, src/dxb_reader.rs:289-297. -/
def readA : DxbM F64 := do
  let s ← get
  let v ← word 4
  return if s.isIntegerMode then ((ofWord 32 v).mul s.scaleFactor).div (.ofInt 1000000)
    else F32.widen (BitVec.ofNat 32 v)

/-- Models `read_f`, src/dxb_reader.rs:298-302: at the end of the input and after an error the value
is zero, the bytes before it have been consumed, and reading goes on. -/
def readF : DxbM F64 := fun s =>
  if 8 ≤ s.bytes.length then
    .ok (⟨BitVec.ofNat 64 (leVal (s.bytes.take 8))⟩, { s with
      bytes := s.bytes.drop 8
      offset := s.offset + 8 })
  else
    .ok (.zero, { s with
      bytes := s.later.headD []
      later := s.later.tail
      offset := s.offset + 8 })

/-- Models `read_n`, src/dxb_reader.rs:303-313. -/
def readN : DxbM F64 := do
  let s ← get
  if s.isIntegerMode then do
    let v ← word 2
    return (ofWord 16 v).mul s.scaleFactor
  else do
    let v ← word 4
    return F32.widen (BitVec.ofNat 32 v)

/-- Models `read_u`, src/dxb_reader.rs:314-322. -/
def readU : DxbM F64 := do
  let s ← get
  let v ← word 4
  return if s.isIntegerMode then ((ofWord 32 v).mul (.ofInt 65536)).mul s.scaleFactor
    else F32.widen (BitVec.ofNat 32 v)

/-- Models `read_w`, src/dxb_reader.rs:323-327: `as i32` saturates. -/
def readW : DxbM I32 := do
  let s ← get
  let v ← word 2
  return BitVec.ofInt 32 (F64.toIntSat (-2 ^ 31) (2 ^ 31 - 1) ((ofWord 16 v).mul s.scaleFactor))

/-- Models `read_null_terminated_string`, src/dxb_reader.rs:277-288: `b as char`. -/
def readString : DxbM Str := fun s =>
  match readStringBin s.bytes with
  | (.error _, _) => .error s.short
  | (.ok v, rest) => .ok (v, { s with
      bytes := rest
      offset := s.offset + v.length + 1 })

/-- `Point::new(self.read_n()?, self.read_n()?, 0.0)`. -/
def readXy : DxbM Point := do
  let x ← readN
  let y ← readN
  return ⟨x, y, .zero⟩

/-- `Point::new(self.read_n()?, self.read_n()?, self.read_n()?)`. -/
def readXyz : DxbM Point := do
  let x ← readN
  let y ← readN
  let z ← readN
  return ⟨x, y, z⟩

/-- Models `wrap_common_values`, src/dxb_reader.rs:271-276. -/
def wrap (k : EName) (r : Rec k.decls) : DxbM Flat := do
  let s ← get
  return ⟨k, 0, ⟨(r.set 7 (s.currentColor : I16)).set 3 (s.layerName : Str), [], []⟩⟩

/-- Models `read_arc`, src/dxb_reader.rs:180-187. -/
def readArc : DxbM Flat := do
  let center ← readXy
  let radius ← readN
  let start ← readA
  let stop ← readA
  wrap .arc (newArc center radius start stop)

/-- Models `read_circle`, src/dxb_reader.rs:188-193. -/
def readCircle : DxbM Flat := do
  let center ← readXy
  let radius ← readN
  wrap .circle (newCircle center radius)

/-- Models `read_face`, src/dxb_reader.rs:194-201. -/
def readFace : DxbM Flat := do
  let p1 ← readXyz
  let p2 ← readXyz
  let p3 ← readXyz
  let p4 ← readXyz
  wrap .face3D (newFace p1 p2 p3 p4)

/-- The line between two points. -/
def mkLine (p1 p2 : Point) : DxbM Flat :=
  wrap .line (newLine p1 p2)

/-- Models `read_line`, src/dxb_reader.rs:202-208. -/
def readLine : DxbM Flat := do
  let p1 ← readXyz
  let p2 ← readXyz
  modify fun s => { s with lastLinePoint := p2 }
  mkLine p1 p2

/-- Models `read_line_extension`, src/dxb_reader.rs:209-214. -/
def readLineExtension : DxbM Flat := do
  let p2 ← readXy
  let p1 := (← get).lastLinePoint
  modify fun s => { s with lastLinePoint := p2 }
  mkLine p1 p2

/-- Models `read_line_extension_3d`, src/dxb_reader.rs:215-220. -/
def readLineExtension3D : DxbM Flat := do
  let p2 ← readXyz
  let p1 := (← get).lastLinePoint
  modify fun s => { s with lastLinePoint := p2 }
  mkLine p1 p2

/-- Models `read_point`, src/dxb_reader.rs:221-225. -/
def readPoint : DxbM Flat := do
  let p ← readXy
  wrap .modelPoint (newPoint p)

/-- Models `read_polyline`, src/dxb_reader.rs:226-231. -/
def readPolyline : DxbM Flat := do
  let closed ← readW
  wrap .polyline (newPolyline (closed != 0#32))

/-- Models `read_seqend`, src/dxb_reader.rs:232-234. -/
def readSeqend : DxbM Flat := wrap .seqend (Rec.dflt _)

/-- Models `read_solid`, src/dxb_reader.rs:235-242. -/
def readSolid : DxbM Flat := do
  let p1 ← readXy
  let p2 ← readXy
  let p3 ← readXy
  let p4 ← readXy
  wrap .solid (newSolid p1 p2 p3 p4)

/-- A trace, whose last two corners are remembered. -/
def mkTrace (p1 p2 p3 p4 : Point) : DxbM Flat := do
  modify fun s => { s with
    lastTraceP3 := p3
    lastTraceP4 := p4 }
  wrap .trace (newTrace p1 p2 p3 p4)

/-- Models `read_trace`, src/dxb_reader.rs:243-252. -/
def readTrace : DxbM Flat := do
  let p1 ← readXy
  let p2 ← readXy
  let p3 ← readXy
  let p4 ← readXy
  mkTrace p1 p2 p3 p4

/-- Models `read_trace_extension`, src/dxb_reader.rs:253-265. -/
def readTraceExtension : DxbM Flat := do
  let p3 ← readXy
  let p4 ← readXy
  let s ← get
  mkTrace s.lastTraceP3 s.lastTraceP4 p3 p4

/-- Models `read_vertex`, src/dxb_reader.rs:266-270. -/
def readVertex : DxbM Flat := do
  let p ← readXy
  wrap .vertex (newVertex p)

/-- The arm of an item that is an entity, src/dxb_reader.rs:66-106; 17 to 137 are the numbers of
src/dxb_item_type.rs:5-28. -/
def readEntity? (item : Nat) : Option (DxbM Flat) :=
  match item with
  | 1 | 21 => some readLine
  | 2 => some readPoint
  | 3 => some readCircle
  | 8 => some readArc
  | 9 => some readTrace
  | 11 => some readSolid
  | 17 => some readSeqend
  | 19 => some readPolyline
  | 20 => some readVertex
  | 22 => some readFace
  | 130 => some readLineExtension
  | 131 => some readTraceExtension
  | 137 => some readLineExtension3D
  | _ => none

/-- What has been read so far: `block_base` and `entities`. -/
structure Found where
  base : Option Point
  entities : List Flat

/-- Models `match vec_last!(entities)`, src/dxb_reader.rs:126-134, 141-150, with
src/helper_functions.rs:426-433: the last entity has to be a vertex. -/
def updateVertex (f : Rec EName.vertex.decls → Rec EName.vertex.decls) (found : Found) :
    DxbM Found := do
  let s ← get
  match found.entities.getLast? with
  | none => fail .unexpectedEmptySet
  | some ⟨.vertex, k, e⟩ => return { found with
      entities := found.entities.dropLast ++ [⟨.vertex, k, { e with fields := f e.fields }⟩] }
  | some _ => fail (.unexpectedEnumValue s.offset)

/-- The arms of the items that are no entities, src/dxb_reader.rs:107-151. -/
def readOther? (item : Nat) (found : Found) : Option (DxbM Found) :=
  match item with
  | 136 => some do
    let v ← readW
    modify fun s => { s with currentColor := v.setWidth 16 }
    return found
  | 129 => some do
    let v ← readString
    modify fun s => { s with layerName := v }
    return found
  | 128 => some do
    let v ← readF
    modify fun s => { s with scaleFactor := v }
    return found
  | 132 => some do
    let p ← readXy
    if found.base.isNone && found.entities.isEmpty then return { found with base := some p }
    else fail .invalidBinaryFile
  | 133 => some do
    let bulge ← readU
    updateVertex (fun r => r.set 21 bulge) found
  | 135 => some do
    let v ← readW
    modify fun s => { s with isIntegerMode := v == 0#32 }
    return found
  | 134 => some do
    let start ← readN
    let stop ← readN
    updateVertex (fun r => (r.set 19 start).set 20 stop) found
  | _ => none

/-- Models the loop over the items, src/dxb_reader.rs:52-155. -/
def loop : Nat → Found → DxbM Found
  | 0, _ => fail .outOfFuel
  | fuel + 1, found => do
    let s ← get
    let item ← word 1
    if item = 0 then return found
    else
      match readEntity? item with
      | some read => do
        let e ← read
        loop fuel { found with entities := found.entities ++ [e] }
      | none =>
        match readOther? item found with
        | some read => do
          let found ← read
          loop fuel found
        | none => fail (.unexpectedEnumValue s.offset)

/-- Models `assert_or_err!` on the next byte, src/dxb_reader.rs:39-51, src/helper_functions.rs:391-398. -/
def expect (b : Byte) (offset : Nat) : DxbM Unit := do
  let v ← word 1
  if byte v = b then return () else fail (.unexpectedByte b offset)

/-- The number of bytes that can be read. -/
def _root_.Dxf.DxbReader.size (s : DxbReader) : Nat :=
  s.bytes.length + s.later.flatten.length

/-- Models `load` up to the end of the loop, src/dxb_reader.rs:38-155.  Each round of the loop
consumes a byte. -/
def items : DxbM Found := do
  expect (byte 0x1A) 16
  expect (byte 0) 17
  let s ← get
  loop (s.size + 1) ⟨none, []⟩

/-! ### Gathering

`collect_entities`, src/entity_iter.rs:29-171, for a list of entities.  For entities from a DXF
file it is modelled by `collectEntities`, where reading on can fail. -/

/-- Models the loop that gathers vertices, src/entity_iter.rs:140-155. -/
def gatherVerts : List Flat → List Vert × List Flat
  | ⟨.vertex, _, e⟩ :: xs =>
    let (vs, rest) := gatherVerts xs
    (⟨Rec.bare e.fields, autoReplaceHandle⟩ :: vs, rest)
  | xs => ([], xs)

/-- Models the loop that gathers attributes, src/entity_iter.rs:110-125. -/
def gatherAtts : List Flat → List Att × List Flat
  | ⟨.attribute, _, e⟩ :: xs =>
    let (as, rest) := gatherAtts xs
    (⟨Rec.bare e.fields, Rec.dflt _, autoReplaceHandle⟩ :: as, rest)
  | xs => ([], xs)

/-- Models `swallow_seqend`, src/entity_iter.rs:33-49. -/
def swallowSeqend : List Flat → List Flat
  | ⟨.seqend, _, _⟩ :: xs => xs
  | xs => xs

/-- Models `mtext`, src/entity_iter.rs:51-68. -/
def takeMText : List Flat → Option MTextRec × List Flat
  | ⟨.mText, _, e⟩ :: xs => (some (Rec.bare e.fields), xs)
  | xs => (none, xs)

/-- Models the loop of `collect_entities`, src/entity_iter.rs:70-168. -/
def collect : Nat → List Flat → Except DxfErr (List Entity)
  | 0, _ => .error .outOfFuel
  | _ + 1, [] => .ok []
  | fuel + 1, x :: xs =>
    if x.kind = .attribute ∨ x.kind = .attributeDefinition then do
      let (m, xs) := takeMText xs
      let rest ← collect fuel xs
      return withMText x m :: rest
    else if x.wantsAtts then do
      let (as, xs) := gatherAtts xs
      let rest ← collect fuel (swallowSeqend xs)
      return ⟨x, { Extra.dflt with atts := as }⟩ :: rest
    else if x.kind = .polyline then do
      let (vs, xs) := gatherVerts xs
      let rest ← collect fuel (swallowSeqend xs)
      return ⟨x, { Extra.dflt with verts := vs }⟩ :: rest
    else do
      let rest ← collect fuel xs
      return ⟨x, Extra.dflt⟩ :: rest

end Dxb

namespace Drawing

variable {Img : Type}

/-- `Block { base_point, ..Default::default() }` with entities, src/dxb_reader.rs:163-167. -/
def dxbBlock (p : Point) (es : List Entity) : Block :=
  ⟨⟨(Rec.dflt _).set 5 p, [], []⟩, es⟩

/-- Models `DxbReader::load`, src/dxb_reader.rs:38-179.  `h0` and `order` as for `Drawing.load`;
`later` is what can be read after the errors of the underlying reader, if there are any. -/
def loadDxb (h0 : Header) (order : List Str) (bytes : List Byte) (later : List (List Byte) := []) :
    Except DxfErr (Drawing Img) := do
  let (found, _) ← Dxb.items (Dxb.reader bytes later)
  let es ← Dxb.collect (found.entities.length + 1) found.entities
  let d ← new h0 order
  match found.base with
  | some p => do
    let (_, d) ← d.clear.addBlock (dxbBlock p es)
    return d
  | none => es.foldlM (fun d e => do
      let (_, d) ← d.addEntity e
      return d) d.clear

/-- The branch for DXB files of `Drawing::load_with_encoding`, src/drawing.rs:113-128; `none` for
another file, whose pairs are those of `fileItems`. -/
def loadDxbFile (enc : Enc) (h0 : Header) (order : List Str) (file : List Byte) :
    Except DxfErr (Option (Drawing Img)) :=
  match readLine true enc file with
  | (.error e, _) => .error e
  | (.ok l, rest) =>
    if l = str!"AutoCAD DXB 1.0" then (loadDxb h0 order rest).map some else .ok none

end Drawing

end Dxf
