import Verif.Model.Num

/-! Small value types: flag words, the dimension type word, transformation matrices and
point lists. -/

namespace Dxf

/-! ### Flag words -/

/-- Models the generated flag getters, build/entity_generator.rs:352-361 (the header and object
generators and the hand-written ones of src/class.rs and src/block.rs have the same form). -/
def getFlag {w : Nat} (word mask : BitVec w) : Bool := word &&& mask ≠ 0

/-- Models the generated flag setters, build/entity_generator.rs:362-385. -/
def setFlag {w : Nat} (word mask : BitVec w) (val : Bool) : BitVec w :=
  if val then word ||| mask else word &&& ~~~mask

/-! ### Dimension type -/

/-- Models `DimensionType`, src/enums.rs:336-344. -/
inductive DimensionType where
  | rotatedHorizontalOrVertical | aligned | angular | diameter | radius | angularThreePoint
  | ordinate
  deriving DecidableEq, Repr

/-- `dimension_type as i16`. -/
def DimensionType.num : DimensionType → Nat
  | rotatedHorizontalOrVertical => 0 | aligned => 1 | angular => 2 | diameter => 3
  | radius => 4 | angularThreePoint => 5 | ordinate => 6

/-- Models `DimensionType::from_i16` with the fallback of `enum_from_number!`,
src/helper_functions.rs:416-423. -/
def DimensionType.ofNum (n : Int) : DimensionType :=
  match n with
  | 0 => rotatedHorizontalOrVertical | 1 => aligned | 2 => angular | 3 => diameter
  | 4 => radius | 5 => angularThreePoint | 6 => ordinate
  | _ => aligned

/-- The four fields of `DimensionBase` packed into code 70, spec/EntitiesSpec.xml:345,356-358. -/
structure DimWord where
  type : DimensionType
  onlyThisBlock : Bool
  ordinateX : Bool
  userLocation : Bool
  deriving DecidableEq, Repr

/-- Models `DimensionBase::set_dimension_type`, src/entity.rs:45-51. -/
def DimWord.unpack (val : I16) : DimWord :=
  { type := .ofNum (val &&& 0x0F#16).toInt
    onlyThisBlock := val &&& 32#16 = 32#16
    ordinateX := val &&& 64#16 = 64#16
    userLocation := val &&& 128#16 = 128#16 }

/-- Models `DimensionBase::dimension_type`, src/entity.rs:52-64. -/
def DimWord.pack (d : DimWord) : I16 :=
  let val := BitVec.ofNat 16 d.type.num
  let val := if d.onlyThisBlock then val ||| 32#16 else val
  let val := if d.ordinateX then val ||| 64#16 else val
  if d.userLocation then val ||| 128#16 else val

/-! ### Proxy entity version word -/

/-- Models `ProxyEntity::object_drawing_format_version`, src/entity.rs:164-166. -/
def proxyFormat (w : BitVec 32) : I32 := w &&& 0xFFFF#32

/-- Models `ProxyEntity::set_object_drawing_format_version`, src/entity.rs:167-169. -/
def setProxyFormat (w : BitVec 32) (v : I32) : BitVec 32 := w ||| (v &&& 0xFFFF#32)

/-- Models `ProxyEntity::object_maintenance_release_version`, src/entity.rs:171-173: the cast to
`i32` comes first, so the shift is arithmetic. -/
def proxyRelease (w : BitVec 32) : I32 := w.sshiftRight 4

/-- Models `ProxyEntity::set_object_mainenance_release_version`, src/entity.rs:174-177; `none` is
the overflow panic of the addition in debug builds. -/
def setProxyRelease (w : BitVec 32) (v : I32) : Option (BitVec 32) :=
  let a := v <<< 4
  let b := w &&& 0xFFFF#32
  if a.toNat + b.toNat < 2 ^ 32 then some (a + b) else none

/-! ### Transformation matrices -/

/-- Models `TransformationMatrix`, src/transformation_matrix.rs:4-21. -/
structure Matrix where
  m11 : F64
  m12 : F64
  m13 : F64
  m14 : F64
  m21 : F64
  m22 : F64
  m23 : F64
  m24 : F64
  m31 : F64
  m32 : F64
  m33 : F64
  m34 : F64
  m41 : F64
  m42 : F64
  m43 : F64
  m44 : F64
  deriving DecidableEq, Repr

/-- Models `value_or_default`, src/transformation_matrix.rs:74-80. -/
def valueOrDefault (values : List F64) (i : Nat) : F64 :=
  match values[i]? with
  | some v => v
  | none => F64.zero

namespace Matrix

/-- Models `from_vec`, src/transformation_matrix.rs:38-57. -/
def fromVec (v : List F64) : Matrix :=
  { m11 := valueOrDefault v 0, m12 := valueOrDefault v 1, m13 := valueOrDefault v 2
    m14 := valueOrDefault v 3, m21 := valueOrDefault v 4, m22 := valueOrDefault v 5
    m23 := valueOrDefault v 6, m24 := valueOrDefault v 7, m31 := valueOrDefault v 8
    m32 := valueOrDefault v 9, m33 := valueOrDefault v 10, m34 := valueOrDefault v 11
    m41 := valueOrDefault v 12, m42 := valueOrDefault v 13, m43 := valueOrDefault v 14
    m44 := valueOrDefault v 15 }

/-- Models `values`, src/transformation_matrix.rs:58-63. -/
def values (m : Matrix) : List F64 :=
  [m.m11, m.m12, m.m13, m.m14, m.m21, m.m22, m.m23, m.m24,
   m.m31, m.m32, m.m33, m.m34, m.m41, m.m42, m.m43, m.m44]

/-- Models `values_row_major_4x3`, src/transformation_matrix.rs:64-69. -/
def values4x3 (m : Matrix) : List F64 :=
  [m.m11, m.m21, m.m31, m.m12, m.m22, m.m32, m.m13, m.m23, m.m33, m.m14, m.m24, m.m34]

/-- The double 1.0. -/
def one : F64 := ⟨0x3ff0000000000000#64⟩

/-- Models `identity`, src/transformation_matrix.rs:25-33. -/
def identity : Matrix :=
  { m11 := one, m12 := .zero, m13 := .zero, m14 := .zero
    m21 := .zero, m22 := one, m23 := .zero, m24 := .zero
    m31 := .zero, m32 := .zero, m33 := one, m34 := .zero
    m41 := .zero, m42 := .zero, m43 := .zero, m44 := one }

/-- Models the conversion of the twelve values read by the SPATIAL_FILTER reader,
src/object.rs:1218-1236 (`none`: fewer than twelve values were read, no matrix is set). -/
def from4x3 (v : List F64) : Option Matrix :=
  match v with
  | [a0, a1, a2, a3, a4, a5, a6, a7, a8, a9, a10, a11] =>
    some (fromVec [a0, a1, a2, .zero, a3, a4, a5, .zero, a6, a7, a8, .zero, a9, a10, a11, .zero])
  | _ => none

end Matrix

/-! ### Points -/

/-- Models `Point`, src/point.rs:6-13, and `Vector`, src/vector.rs. -/
structure Point where
  x : F64
  y : F64
  z : F64
  deriving DecidableEq, Repr

/-- Models `combine_points_2`, src/helper_functions.rs:173-186, on an empty result list with
the point constructor: the two coordinate lists are used up. -/
def combinePoints2 (xs ys : List F64) : List Point :=
  (xs.zip ys).map fun (x, y) => ⟨x, y, F64.zero⟩

/-- Models `combine_points_3`, src/helper_functions.rs:188-203. -/
def combinePoints3 (xs ys zs : List F64) : List Point :=
  (xs.zip (ys.zip zs)).map fun (x, y, z) => ⟨x, y, z⟩

end Dxf
