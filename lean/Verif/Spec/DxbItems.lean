import Verif.Spec.Dxb

/-! What the items of a DXB file mean (C50). -/

namespace Dxf

/-- Numbers are single-precision floats or whole numbers, which are to be multiplied by a scale
factor.  `DxbMode.n` codes the raw bits of a coordinate or length, `DxbMode.long` those of an angle
or bulge. -/
inductive DxbMode
  | float
  | whole

namespace DxbMode

def n : DxbMode → BitVec 32 → List Byte
  | .float, x => leBytes 4 x.toNat
  | .whole, x => leBytes 2 (x.setWidth 16).toNat

def long (x : BitVec 32) : List Byte := leBytes 4 x.toNat

/-- The coordinate with these bits. -/
def coord : DxbMode → F64 → BitVec 32 → F64
  | .float, _, x => F32.widen x
  | .whole, scale, x => (F64.ofInt (x.setWidth 16).toInt).mul scale

/-- The angle with these bits: whole numbers are millionths. -/
def angle : DxbMode → F64 → BitVec 32 → F64
  | .float, _, x => F32.widen x
  | .whole, scale, x => ((F64.ofInt x.toInt).mul scale).div (.ofInt 1000000)

/-- The bulge with these bits. -/
def bulge : DxbMode → F64 → BitVec 32 → F64
  | .float, _, x => F32.widen x
  | .whole, scale, x => ((F64.ofInt x.toInt).mul (.ofInt 65536)).mul scale

end DxbMode

/-- A point of the plane. -/
structure DxbXy where
  x : BitVec 32
  y : BitVec 32

/-- A point of space. -/
structure DxbXyz where
  x : BitVec 32
  y : BitVec 32
  z : BitVec 32

def DxbXy.bytes (m : DxbMode) (p : DxbXy) : List Byte := m.n p.x ++ m.n p.y
def DxbXyz.bytes (m : DxbMode) (p : DxbXyz) : List Byte := m.n p.x ++ m.n p.y ++ m.n p.z

def DxbXy.point (m : DxbMode) (f : F64) (p : DxbXy) : Point := ⟨m.coord f p.x, m.coord f p.y, .zero⟩
def DxbXyz.point (m : DxbMode) (f : F64) (p : DxbXyz) : Point :=
  ⟨m.coord f p.x, m.coord f p.y, m.coord f p.z⟩

/-- What may follow a vertex. -/
inductive DxbTrait
  | bulge (u : BitVec 32)
  | widths (start stop : BitVec 32)

/-- A vertex with what follows it. -/
structure DxbVertex where
  location : DxbXy
  traits : List DxbTrait

/-- The items, of which `lineTo`, `lineToXyz` and `traceTo` go on where the last line or trace
ended. -/
inductive DxbItem
  | layer (name : Str)
  | color (c : I16)
  | line (p q : DxbXyz)
  | lineTo (q : DxbXy)
  | lineToXyz (q : DxbXyz)
  | point (p : DxbXy)
  | circle (center : DxbXy) (radius : BitVec 32)
  | arc (center : DxbXy) (radius start stop : BitVec 32)
  | trace (p q r s : DxbXy)
  | traceTo (r s : DxbXy)
  | solid (p q r s : DxbXy)
  | face (p q r s : DxbXyz)
  | polyline (closed : Bool) (vertices : List DxbVertex)

def DxbTrait.bytes (m : DxbMode) : DxbTrait → List Byte
  | .bulge u => byte 133 :: DxbMode.long u
  | .widths a b => byte 134 :: (m.n a ++ m.n b)

def DxbVertex.bytes (m : DxbMode) (v : DxbVertex) : List Byte :=
  byte 20 :: (v.location.bytes m ++ v.traits.flatMap (DxbTrait.bytes m))

/-- The bytes of an item. -/
def DxbItem.bytes (m : DxbMode) : DxbItem → List Byte
  | .layer name => byte 129 :: (name.map (fun c => byte c.toNat) ++ [byte 0])
  | .color c => byte 136 :: leBytes 2 c.toNat
  | .line p q => byte 1 :: (p.bytes m ++ q.bytes m)
  | .lineTo q => byte 130 :: q.bytes m
  | .lineToXyz q => byte 137 :: q.bytes m
  | .point p => byte 2 :: p.bytes m
  | .circle p r => byte 3 :: (p.bytes m ++ m.n r)
  | .arc p r a b => byte 8 :: (p.bytes m ++ m.n r ++ DxbMode.long a ++ DxbMode.long b)
  | .trace p q r s => byte 9 :: (p.bytes m ++ q.bytes m ++ r.bytes m ++ s.bytes m)
  | .traceTo r s => byte 131 :: (r.bytes m ++ s.bytes m)
  | .solid p q r s => byte 11 :: (p.bytes m ++ q.bytes m ++ r.bytes m ++ s.bytes m)
  | .face p q r s => byte 22 :: (p.bytes m ++ q.bytes m ++ r.bytes m ++ s.bytes m)
  | .polyline closed vs => byte 19 :: (leBytes 2 (if closed then 1 else 0) ++
      vs.flatMap (DxbVertex.bytes m) ++ [byte 17])

/-- The bytes that choose a mode: whole numbers are the rule. -/
def DxbMode.choose : DxbMode → List Byte
  | .float => [byte 135, byte 1, byte 0]
  | .whole => []

/-- A DXB file with these items; the numbers in it are scaled by `scale`. -/
def dxbFile (m : DxbMode) (scale : F64) (items : List DxbItem) : List Byte :=
  Dxb.sentinel ++ (m.choose ++ (byte 128 :: leBytes 8 scale.bits.toNat) ++
    items.flatMap (DxbItem.bytes m) ++ [byte 0])

/-- What the meaning of an item depends on: the layer and colour in force, and where the last line
and the last trace ended. -/
structure DxbPen where
  layer : Str
  color : I16
  line : Point
  trace : Point × Point

/-- An entity with the layer and colour in force. -/
def DxbPen.entity (pen : DxbPen) (k : EName) (r : Rec k.decls) : Entity :=
  ⟨⟨k, 0, ⟨(r.set 7 (pen.color : I16)).set 3 (pen.layer : Str), [], []⟩⟩, Extra.dflt⟩

/-- The vertex with a bulge or widths. -/
def DxbTrait.apply (m : DxbMode) (f : F64) (r : Rec EName.vertex.decls) :
    DxbTrait → Rec EName.vertex.decls
  | .bulge u => r.set 21 (m.bulge f u)
  | .widths a b => (r.set 19 (m.coord f a)).set 20 (m.coord f b)

/-- A vertex of a polyline. -/
def DxbVertex.vert (m : DxbMode) (f : F64) (v : DxbVertex) : Vert :=
  ⟨v.traits.foldl (DxbTrait.apply m f) (Dxb.newVertex (v.location.point m f)), 0#64⟩

/-- The pen after an item. -/
def DxbItem.pen (m : DxbMode) (f : F64) (pen : DxbPen) : DxbItem → DxbPen
  | .layer name => { pen with layer := name }
  | .color c => { pen with color := c }
  | .line _ q => { pen with line := q.point m f }
  | .lineTo q => { pen with line := q.point m f }
  | .lineToXyz q => { pen with line := q.point m f }
  | .trace _ _ r s => { pen with trace := (r.point m f, s.point m f) }
  | .traceTo r s => { pen with trace := (r.point m f, s.point m f) }
  | _ => pen

/-- The entity that an item stands for. -/
def DxbItem.entity (m : DxbMode) (f : F64) (pen : DxbPen) : DxbItem → Option Entity
  | .layer _ => none
  | .color _ => none
  | .line p q => some (pen.entity .line (Dxb.newLine (p.point m f) (q.point m f)))
  | .lineTo q => some (pen.entity .line (Dxb.newLine pen.line (q.point m f)))
  | .lineToXyz q => some (pen.entity .line (Dxb.newLine pen.line (q.point m f)))
  | .point p => some (pen.entity .modelPoint (Dxb.newPoint (p.point m f)))
  | .circle p r => some (pen.entity .circle (Dxb.newCircle (p.point m f) (m.coord f r)))
  | .arc p r a b => some (pen.entity .arc (Dxb.newArc (p.point m f) (m.coord f r) (m.angle f a)
      (m.angle f b)))
  | .trace p q r s => some (pen.entity .trace (Dxb.newTrace (p.point m f) (q.point m f)
      (r.point m f) (s.point m f)))
  | .traceTo r s => some (pen.entity .trace (Dxb.newTrace pen.trace.1 pen.trace.2 (r.point m f)
      (s.point m f)))
  | .solid p q r s => some (pen.entity .solid (Dxb.newSolid (p.point m f) (q.point m f)
      (r.point m f) (s.point m f)))
  | .face p q r s => some (pen.entity .face3D (Dxb.newFace (p.point m f) (q.point m f)
      (r.point m f) (s.point m f)))
  | .polyline closed vs => some { pen.entity .polyline (Dxb.newPolyline closed) with
      extra := { Extra.dflt with verts := vs.map (DxbVertex.vert m f) } }

/-- The entities that a list of items stands for. -/
def DxbItem.entities (m : DxbMode) (f : F64) : DxbPen → List DxbItem → List Entity
  | _, [] => []
  | pen, i :: is => (i.entity m f pen).toList ++ DxbItem.entities m f (i.pen m f pen) is

/-- At first the layer is 0, the colour is that of the layer, and lines and traces start at the
origin. -/
def DxbPen.start : DxbPen := ⟨str!"0", 256#16, .origin, (.origin, .origin)⟩

/-- A DXB file with these items that holds a block with this base point. -/
def dxbBlockFile (m : DxbMode) (scale : F64) (p : DxbXy) (items : List DxbItem) : List Byte :=
  Dxb.sentinel ++ (m.choose ++ (byte 128 :: leBytes 8 scale.bits.toNat) ++
    (byte 132 :: p.bytes m) ++ items.flatMap (DxbItem.bytes m) ++ [byte 0])

/-- What becomes of a word (a colour or a flag) when it is scaled. -/
def scaledWord (f : F64) (w : I16) : I32 :=
  BitVec.ofInt 32 (F64.toIntSat (-2 ^ 31) (2 ^ 31 - 1) ((F64.ofInt w.toInt).mul f))

/-- The item with scaled words. -/
def DxbItem.scaled (f : F64) : DxbItem → DxbItem
  | .color c => .color ((scaledWord f c).setWidth 16)
  | .polyline closed vs => .polyline (scaledWord f (if closed then 1#16 else 0#16) != 0#32) vs
  | i => i

/-- Names have to consist of bytes, without a zero. -/
def DxbItem.Named : DxbItem → Prop
  | .layer name => Str.Latin name
  | _ => True

end Dxf
