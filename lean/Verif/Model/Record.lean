import Verif.Model.XData
import Verif.Model.ExtData
import Verif.Model.Color
import Verif.Model.Date
import Verif.Model.Uuid

/-!
Typed records for the structs that the build scripts generate from the XML specifications, with
the conversions between a field value and the pair that carries it.

The generators (build/*_generator.rs) emit, for every `<Field>` and `<Pointer>` of a
specification, a struct field, a match arm of the reader and a write statement.  The model keeps
the specification as data (`Verif/Data/*.lean`, made from the XML files by tools/gen_specs.py)
and interprets it.
-/

namespace Dxf

/-! ### Types of fields -/

/-- A point list of an entity while it is read: the three private vectors of coordinates
(`__vertices_x` and so on) and the public vector, which `post_parse` fills from them
(src/entity.rs:680-776).  The model treats the three or four struct fields as one. -/
structure PtAcc where
  xs : List F64
  ys : List F64
  zs : List F64
  pts : List Point
  deriving DecidableEq

/-- Models `LwPolylineVertex`, src/entity.rs:123-131. -/
structure LwVertex where
  x : F64
  y : F64
  id : I32
  startingWidth : F64
  endingWidth : F64
  bulge : F64
  deriving DecidableEq

/-- Types of struct fields.  `Color`, `LineWeight` (both wrappers of `i16`) are `i16`,
`ViewMode` (a wrapper of `i32`) and `u32` are `i32`, `Vector` is `point`; an enum is given by the
list of its discriminants. -/
inductive Ty where
  | unit | bool | i16 | i32 | i64 | f64 | str | handle | bytes | chr | point
  | version | date | dur | uuid
  | enum (vals : List Int)
  | list (t : Ty)
  /-- a list of points read coordinate by coordinate, with three or two coordinates -/
  | pts (three : Bool)
  /-- the vertices of a `LwPolyline` -/
  | lw
  deriving DecidableEq, Repr

/-- The values of a type; an enum value is an index into the list of discriminants. -/
def Ty.den : Ty → Type
  | unit => Unit
  | bool => Bool
  | i16 => I16
  | i32 => I32
  | i64 => I64
  | f64 => F64
  | str => Str
  | handle => Handle
  | bytes => List Byte
  | chr => Char
  | point => Point
  | version => Version
  | date => Date
  | dur => Dur
  | uuid => Uuid
  | enum vals => Fin vals.length
  | list t => List t.den
  | pts _ => PtAcc
  | lw => List LwVertex

instance Ty.decEqDen : (t : Ty) → DecidableEq t.den
  | unit => inferInstanceAs (DecidableEq Unit)
  | bool => inferInstanceAs (DecidableEq Bool)
  | i16 => inferInstanceAs (DecidableEq I16)
  | i32 => inferInstanceAs (DecidableEq I32)
  | i64 => inferInstanceAs (DecidableEq I64)
  | f64 => inferInstanceAs (DecidableEq F64)
  | str => inferInstanceAs (DecidableEq Str)
  | handle => inferInstanceAs (DecidableEq Handle)
  | bytes => inferInstanceAs (DecidableEq (List Byte))
  | chr => inferInstanceAs (DecidableEq Char)
  | point => inferInstanceAs (DecidableEq Point)
  | version => inferInstanceAs (DecidableEq Version)
  | date => inferInstanceAs (DecidableEq Int)
  | dur => inferInstanceAs (DecidableEq Dur)
  | uuid => inferInstanceAs (DecidableEq (BitVec 128))
  | enum vals => inferInstanceAs (DecidableEq (Fin vals.length))
  | list t => @instDecidableEqList _ (Ty.decEqDen t)
  | pts _ => inferInstanceAs (DecidableEq PtAcc)
  | lw => inferInstanceAs (DecidableEq (List LwVertex))

/-- Rust's `==` on doubles: NaN differs from everything, the two zeros are equal. -/
def F64.rustEq (x y : F64) : Bool :=
  !x.isNan && !y.isNan && (x = y || (x.units = 0 && y.units = 0 && x.isFinite && y.isFinite))

/-- Rust's `==` (derived `PartialEq`) on field values.  The writers never compare values of the
last two types. -/
def Ty.rustEq : (t : Ty) → t.den → t.den → Bool
  | unit, _, _ => true
  | bool, a, b => decide ((a : Bool) = b)
  | i16, a, b => decide ((a : I16) = b)
  | i32, a, b => decide ((a : I32) = b)
  | i64, a, b => decide ((a : I64) = b)
  | f64, a, b => F64.rustEq a b
  | str, a, b => decide ((a : Str) = b)
  | handle, a, b => decide ((a : Handle) = b)
  | bytes, a, b => decide ((a : List Byte) = b)
  | chr, a, b => decide ((a : Char) = b)
  | point, a, b =>
    F64.rustEq (a : Point).x (b : Point).x && F64.rustEq (a : Point).y (b : Point).y &&
    F64.rustEq (a : Point).z (b : Point).z
  | version, a, b => decide ((a : Version) = b)
  | date, a, b => decide ((a : Int) = b)
  | dur, a, b => decide ((a : Dur) = b)
  | uuid, a, b => decide ((a : BitVec 128) = b)
  | enum _, a, b => decide ((a : Fin _) = b)
  | list t, a, b =>
    decide ((a : List t.den).length = (b : List t.den).length) &&
    ((a : List t.den).zip b).all fun (x, y) => Ty.rustEq t x y
  | pts _, a, b => decide ((a : PtAcc) = b)
  | lw, a, b => decide ((a : List LwVertex) = b)

/-! ### Conversions -/

/-- Models `enum_from_number!`, src/helper_functions.rs:416-423, with the `from_iN` of the
`enum_from_primitive!` macro: the first discriminant equal to `n`, else the default. -/
def enumOfInt (vals : List Int) (dflt : Fin vals.length) (n : Int) : Fin vals.length :=
  match vals.findFinIdx? (· = n) with
  | some i => i
  | none => dflt

/-- The `ReadConverter` of a field together with the `assert_*` call chosen by the type of its
code (build/xml_helpers.rs:52-72). -/
inductive RConv : Ty → Type where
  /-- `pair.assert_bool()?` -/
  | bool : RConv .bool
  /-- `as_bool(pair.assert_i16()?)` -/
  | asBool : RConv .bool
  /-- `!as_bool(pair.assert_i16()?)` -/
  | notBool : RConv .bool
  /-- `pair.assert_i16()?`, also `Color::from_raw_value(..)`, `LineWeight::from_raw_value(..)` -/
  | i16 : RConv .i16
  /-- `pair.assert_i32()?`, also `.. as u32` -/
  | i32 : RConv .i32
  /-- `i32::from(pair.assert_i16()?)`, `pair.assert_i16()? as i32`, `ViewMode::from_i16(..)` -/
  | i32OfI16 : RConv .i32
  | i64 : RConv .i64
  | f64 : RConv .f64
  | str : RConv .str
  | bytes : RConv .bytes
  /-- `pair.as_handle()?` -/
  | handle : RConv .handle
  /-- `pair.assert_i16()? as u8 as char` -/
  | chr : RConv .chr
  /-- `enum_from_number!(T, D, from_i16, pair.assert_i16()?)` -/
  | enumI16 (vals : List Int) (dflt : Fin vals.length) : RConv (.enum vals)
  /-- `enum_from_number!(T, D, from_i32, pair.assert_i32()?)` -/
  | enumI32 (vals : List Int) (dflt : Fin vals.length) : RConv (.enum vals)
  /-- `enum_from_number!(T, D, from_f64, pair.assert_f64()?)` -/
  | enumF64 (vals : List Int) (dflt : Fin vals.length) : RConv (.enum vals)
  /-- `enum_from_number!(T, D, from_i16, if pair.assert_bool()? { 1 } else { 0 })` for an enum
  that has both values (`clipping_from_bool`, src/helper_functions.rs:228-230) -/
  | enumBool (vals : List Int) (dflt : Fin vals.length) : RConv (.enum vals)
  /-- `pair.assert_i32()? as i16` -/
  | i16OfI32 : RConv .i16
  /-- `pair.assert_f64()? as i32` -/
  | i32OfF64 : RConv .i32
  /-- `f64::from(pair.assert_i16()?)` -/
  | f64OfI16 : RConv .f64
  /-- `f64::from(pair.assert_i32()?)` -/
  | f64OfI32 : RConv .f64
  /-- `AcadVersion::from_safe(pair.assert_string()?)` -/
  | version : RConv .version
  /-- `as_datetime_local(pair.assert_f64()?)`, `as_datetime_utc(..)` -/
  | date : RConv .date
  /-- `as_duration(pair.assert_f64()?)` -/
  | dur : RConv .dur
  /-- `as_uuid(pair.assert_string()?)` -/
  | uuid : RConv .uuid
  /-- `pair.assert_string()?` with the result kept outside the record -/
  | ignoreStr : RConv .unit

/-- Reads one value from a pair. -/
def RConv.read : {t : Ty} → RConv t → CodePair → Except DxfErr t.den
  | _, .bool, p => p.assertBool
  | _, .asBool, p => p.assertI16.map fun v => decide (v = 1#16)
  | _, .notBool, p => p.assertI16.map fun v => !decide (v = 1#16)
  | _, .i16, p => p.assertI16
  | _, .i32, p => p.assertI32
  | _, .i32OfI16, p => p.assertI16.map fun v => v.signExtend 32
  | _, .i64, p => p.assertI64
  | _, .f64, p => p.assertF64
  | _, .str, p => p.assertString
  | _, .bytes, p => p.assertBinary
  | _, .handle, p => p.asHandle
  | _, .chr, p => p.assertI16.map fun v => Char.ofNat (v.setWidth 8).toNat
  | _, .enumI16 vals d, p => p.assertI16.map fun v => enumOfInt vals d v.toInt
  | _, .enumI32 vals d, p => p.assertI32.map fun v => enumOfInt vals d v.toInt
  | _, .enumF64 vals d, p => p.assertF64.map fun v =>
    match v.toI64? with
    | some n => enumOfInt vals d n
    | none => d
  | _, .enumBool vals d, p => p.assertBool.map fun v => enumOfInt vals d (bif v then 1 else 0)
  | _, .i16OfI32, p => p.assertI32.map fun v => v.setWidth 16
  | _, .i32OfF64, p => p.assertF64.map fun v =>
    BitVec.ofInt 32 (v.toIntSat (-2 ^ 31) (2 ^ 31 - 1))
  | _, .f64OfI16, p => p.assertI16.map fun v => F64.ofInt v.toInt
  | _, .f64OfI32, p => p.assertI32.map fun v => F64.ofInt v.toInt
  | _, .version, p => p.assertString.map Version.fromSafe
  | _, .date, p =>
    match p.assertF64 with
    | .ok v => Date.ofDouble v
    | .error e => .error e
  | _, .dur, p => p.assertF64.map Dur.ofDouble
  | _, .uuid, p => p.assertString.map Uuid.ofText
  | _, .ignoreStr, p => p.assertString.map fun _ => ()

/-- The `WriteConverter` of a field together with the `CodePair::new_*` call chosen by the type
of its code. -/
inductive WConv : Ty → Type where
  | bool : WConv .bool
  /-- `as_i16({})` -/
  | asI16 : WConv .bool
  /-- `as_i16(!{})` -/
  | notI16 : WConv .bool
  | i16 : WConv .i16
  | i32 : WConv .i32
  /-- `{} as i16` of an `i32` -/
  | i32AsI16 : WConv .i32
  | i64 : WConv .i64
  | f64 : WConv .f64
  | str : WConv .str
  | bytes : WConv .bytes
  /-- `{}.as_string()` -/
  | handle : WConv .handle
  /-- `{} as i16` of a `char` -/
  | chr : WConv .chr
  /-- `{} as i16` of an enum -/
  | enumI16 (vals : List Int) : WConv (.enum vals)
  /-- `{} as i32` of an enum -/
  | enumI32 (vals : List Int) : WConv (.enum vals)
  /-- `f64::from({} as i32)` of an enum -/
  | enumF64 (vals : List Int) : WConv (.enum vals)
  /-- `{} != V` where `V` has the discriminant 0 (`bool_from_clipping`,
  src/helper_functions.rs:232-234) -/
  | enumBool (vals : List Int) : WConv (.enum vals)
  /-- `{} as f64` of an `i32` -/
  | i32AsF64 : WConv .i32
  /-- `{} as i16` of an `f64` -/
  | f64AsI16 : WConv .f64
  /-- `{} as i32` of an `f64` -/
  | f64AsI32 : WConv .f64
  /-- `&{}.to_string()` -/
  | version : WConv .version
  /-- `as_double_local({})`, `as_double_utc({})` -/
  | date : WConv .date
  /-- `duration_as_double({})` -/
  | dur : WConv .dur
  /-- `&uuid_string(&{})` -/
  | uuid : WConv .uuid

/-- The pair written for a value. -/
def WConv.write : {t : Ty} → WConv t → Int → t.den → CodePair
  | _, .bool, c, v => .newBool c v
  | _, .asI16, c, v => .newI16 c (bif v then 1 else 0)
  | _, .notI16, c, v => .newI16 c (bif v then 0 else 1)
  | _, .i16, c, v => .newI16 c v
  | _, .i32, c, v => .newI32 c v
  | _, .i32AsI16, c, v => .newI16 c ((v : I32).setWidth 16)
  | _, .i64, c, v => .newI64 c v
  | _, .f64, c, v => .newF64 c v
  | _, .str, c, v => .newStr c v
  | _, .bytes, c, v => .newBinary c v
  | _, .handle, c, v => .newStr c (Handle.asString v)
  | _, .chr, c, v => .newI16 c (BitVec.ofNat 16 (v : Char).toNat)
  | _, .enumI16 vals, c, v => .newI16 c (BitVec.ofInt 16 (vals.get v))
  | _, .enumI32 vals, c, v => .newI32 c (BitVec.ofInt 32 (vals.get v))
  | _, .enumF64 vals, c, v => .newF64 c (F64.ofInt (vals.get v))
  | _, .enumBool vals, c, v => .newBool c (decide (vals.get v ≠ 0))
  | _, .i32AsF64, c, v => .newF64 c (F64.ofInt (v : I32).toInt)
  | _, .f64AsI16, c, v => .newI16 c (F64.toI16 v)
  | _, .f64AsI32, c, v => .newI32 c (BitVec.ofInt 32 (F64.toIntSat (-2 ^ 31) (2 ^ 31 - 1) v))
  | _, .version, c, v => .newStr c (Version.display v)
  | _, .date, c, v => .newF64 c (Date.asDouble v)
  | _, .dur, c, v => .newF64 c (Dur.asDouble v)
  | _, .uuid, c, v => .newStr c (Uuid.display v)

/-! ### Fields -/

/-- A coordinate of a point or vector. -/
inductive Axis where
  | x | y | z
  deriving DecidableEq, Repr

/-- Sets one coordinate. -/
def Point.setAxis (p : Point) : Axis → F64 → Point
  | .x, v => { p with x := v }
  | .y, v => { p with y := v }
  | .z, v => { p with z := v }

/-- One coordinate. -/
def Point.axis (p : Point) : Axis → F64
  | .x => p.x
  | .y => p.y
  | .z => p.z

/-- `v.push(x)` on one of the coordinate vectors of a point list. -/
def PtAcc.push (acc : PtAcc) : Axis → F64 → PtAcc
  | .x, v => { acc with xs := acc.xs ++ [v] }
  | .y, v => { acc with ys := acc.ys ++ [v] }
  | .z, v => { acc with zs := acc.zs ++ [v] }

/-- Models `combine_points_3` and, when `three` is false, `combine_points_2`,
src/helper_functions.rs:173-203. -/
def PtAcc.combine (three : Bool) (acc : PtAcc) : PtAcc :=
  ⟨[], [], [], acc.pts ++
    if three then combinePoints3 acc.xs acc.ys acc.zs else combinePoints2 acc.xs acc.ys⟩

/-- The coordinates that are written and read for a point list. -/
def axesOf (three : Bool) : List Axis := if three then [.x, .y, .z] else [.x, .y]

/-- The value of a field once `post_parse` (src/entity.rs:680-776) has combined the coordinates
of point lists; other fields are not touched. -/
def Ty.finish : (t : Ty) → t.den → t.den
  | .pts three, v => PtAcc.combine three v
  | _, v => v

/-- `LwPolylineVertex::default()`. -/
def LwVertex.dflt : LwVertex := ⟨F64.zero, F64.zero, 0#32, F64.zero, F64.zero, F64.zero⟩

/-- The fields of a `LwPolylineVertex` other than `x`. -/
inductive LwField where
  | y | id | startingWidth | endingWidth | bulge
  deriving DecidableEq

/-- `vertex.f = pair.assert_..()?` -/
def LwVertex.setField (v : LwVertex) (p : CodePair) : LwField → Except DxfErr LwVertex
  | .y => p.assertF64.map fun x => { v with y := x }
  | .id => p.assertI32.map fun x => { v with id := x }
  | .startingWidth => p.assertF64.map fun x => { v with startingWidth := x }
  | .endingWidth => p.assertF64.map fun x => { v with endingWidth := x }
  | .bulge => p.assertF64.map fun x => { v with bulge := x }

/-- What a match arm of a generated reader does to its field. -/
inductive FRead : Ty → Type where
  /-- `item.f = ..` -/
  | set {t : Ty} (c : RConv t) : FRead t
  /-- `item.f.push(..)` -/
  | push {t : Ty} (c : RConv t) : FRead (.list t)
  /-- `item.f.x = pair.assert_f64()?` -/
  | axis (a : Axis) : FRead .point
  /-- `item.__f_x.push(pair.assert_f64()?)` -/
  | pushAxis {three : Bool} (a : Axis) : FRead (.pts three)
  /-- a new vertex: the arm for 10 of `apply_custom_reader_lwpolyline`, src/entity.rs:1111-1115 -/
  | lwNew : FRead .lw
  /-- `vec_last!(poly.vertices).f = ..`, src/entity.rs:1116-1130 and
  src/helper_functions.rs:426-433; the value is converted before the vertex is looked up -/
  | lwSet (f : LwField) : FRead .lw

/-- The new value of the field. -/
def FRead.apply : {t : Ty} → FRead t → t.den → CodePair → Except DxfErr t.den
  | _, .set c, _, p => c.read p
  | _, .push c, old, p => (c.read p).map fun v => List.append old [v]
  | _, .axis a, old, p => p.assertF64.map fun v => Point.setAxis old a v
  | _, .pushAxis a, old, p => p.assertF64.map fun v => PtAcc.push old a v
  | _, .lwNew, old, p => p.assertF64.map fun v => List.append old [{ LwVertex.dflt with x := v }]
  | _, .lwSet f, old, p =>
    match LwVertex.dflt.setField p f with
    | .error e => .error e
    | .ok _ =>
      match List.getLast? old with
      | none => .error .unexpectedEmptySet
      | some l => (l.setField p f).map fun l' => List.append (List.dropLast old) [l']

/-- What a write statement of a generated writer emits for its field. -/
inductive FWrite : Ty → Type where
  /-- one pair -/
  | one {t : Ty} (code : Int) (c : WConv t) : FWrite t
  /-- one pair per element -/
  | many {t : Ty} (code : Int) (c : WConv t) : FWrite (.list t)
  /-- one pair per listed coordinate -/
  | axes (codes : List (Axis × Int)) : FWrite .point
  /-- a `<Foreach>` over points: one pair per point and listed coordinate -/
  | points {three : Bool} (code : Axis → Int) : FWrite (.pts three)
  /-- the `<Foreach>` over the vertices of a `LwPolyline`, with or without the identifiers -/
  | lw (withId : Bool) : FWrite .lw

/-- The pairs of one vertex of a `LwPolyline` (spec/EntitiesSpec.xml, `LwPolyline`). -/
def LwVertex.pairs (withId : Bool) (v : LwVertex) : List CodePair :=
  [.newF64 10 v.x, .newF64 20 v.y] ++
  (if withId then [.newI32 91 v.id] else []) ++
  (if F64.rustEq v.startingWidth F64.zero then [] else [.newF64 40 v.startingWidth]) ++
  (if F64.rustEq v.endingWidth F64.zero then [] else [.newF64 41 v.endingWidth]) ++
  (if F64.rustEq v.bulge F64.zero then [] else [.newF64 42 v.bulge])

/-- The pairs emitted. -/
def FWrite.emit : {t : Ty} → FWrite t → t.den → List CodePair
  | _, .one code c, v => [c.write code v]
  | _, .many code c, v => v.map (c.write code)
  | _, .axes codes, v => codes.map fun (a, c) => .newF64 c (Point.axis v a)
  | .pts three, .points code, v =>
    (PtAcc.pts v).flatMap fun q => (axesOf three).map fun a => .newF64 (code a) (Point.axis q a)
  | _, .lw withId, v => List.flatMap (LwVertex.pairs withId) v

/-! ### Records -/

/-- A struct field: its type and the value given by `Default`. -/
abbrev Decl := (t : Ty) × t.den

/-- The declaration of field number `i` (a unit field beyond the end). -/
def declAt (ds : List Decl) (i : Nat) : Decl :=
  match ds[i]? with
  | some d => d
  | none => ⟨.unit, ()⟩

/-- The type of field number `i`. -/
abbrev tyAt (ds : List Decl) (i : Nat) : Ty := (declAt ds i).1

/-- A value of the generated struct: a value for every field. -/
abbrev Rec (ds : List Decl) : Type := (i : Nat) → (tyAt ds i).den

/-- The `Default` value. -/
def Rec.dflt (ds : List Decl) : Rec ds := fun i => (declAt ds i).2

/-- Assignment to field `i`. -/
def Rec.set {ds : List Decl} (r : Rec ds) (i : Nat) (v : (tyAt ds i).den) : Rec ds :=
  fun j => if h : j = i then h ▸ v else r j

/-- What a match arm does. -/
inductive Act (ds : List Decl) where
  /-- the usual case: one field -/
  | on (field : Nat) (act : FRead (tyAt ds field))
  /-- a `ReadConverter` that touches several fields (only `read_color_value` of a layer) -/
  | custom (targets : List Nat) (f : Rec ds → CodePair → Except DxfErr (Rec ds))

/-- A match arm of a reader. -/
structure Arm (ds : List Decl) where
  code : Int
  act : Act ds

/-- A write statement. -/
inductive Cmd (ds : List Decl) where
  /-- a constant pair, such as a subclass marker -/
  | const (p : CodePair)
  /-- a field -/
  | field (i : Nat) (w : FWrite (tyAt ds i))
  /-- a value computed from the record -/
  | computed {t : Ty} (code : Int) (c : WConv t) (f : Rec ds → t.den)

/-- A write statement with the condition under which it is executed. -/
structure GCmd (ds : List Decl) where
  cmd : Cmd ds
  min : Option Version := none
  max : Option Version := none
  cond : Rec ds → Bool := fun _ => true

/-- The condition: version bounds and `WriteCondition`/`DisableWritingDefault`. -/
def GCmd.holds {ds : List Decl} (g : GCmd ds) (v : Version) (r : Rec ds) : Bool :=
  versionGate g.min g.max v && g.cond r

/-- The pairs one statement emits. -/
def Cmd.emit {ds : List Decl} (r : Rec ds) : Cmd ds → List CodePair
  | .const p => [p]
  | .field i w => w.emit (r i)
  | .computed code c f => [c.write code (f r)]

/-- The pairs one guarded statement emits. -/
def GCmd.emit {ds : List Decl} (g : GCmd ds) (v : Version) (r : Rec ds) : List CodePair :=
  if g.holds v r then g.cmd.emit r else []

/-- All pairs a list of statements emits. -/
def emitAll {ds : List Decl} (cmds : List (GCmd ds)) (v : Version) (r : Rec ds) : List CodePair :=
  cmds.flatMap fun g => g.emit v r

/-- The arm that handles a code: the first one (later arms of a Rust `match` with the same
pattern are unreachable). -/
def findArm {ds : List Decl} (arms : List (Arm ds)) (code : Int) : Option (Arm ds) :=
  arms.find? fun a => decide (a.code = code)

/-- Applies one arm. -/
def Act.apply {ds : List Decl} (r : Rec ds) (p : CodePair) : Act ds → Except DxfErr (Rec ds)
  | .on i act => (act.apply (r i) p).map fun v => r.set i v
  | .custom _ f => f r p

/-- Applies the arm of the pair's code; codes without an arm are ignored. -/
def applyPair {ds : List Decl} (arms : List (Arm ds)) (r : Rec ds) (p : CodePair) :
    Except DxfErr (Rec ds) :=
  match findArm arms p.code with
  | some a => a.act.apply r p
  | none => .ok r

/-- Applies a list of pairs in order. -/
def foldPairs {ds : List Decl} (arms : List (Arm ds)) (r : Rec ds) :
    List CodePair → Except DxfErr (Rec ds)
  | [] => .ok r
  | p :: ps =>
    match applyPair arms r p with
    | .ok r' => foldPairs arms r' ps
    | .error e => .error e

end Dxf
