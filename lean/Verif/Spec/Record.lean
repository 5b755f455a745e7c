import Verif.Model.Record

/-!
Specification vocabulary for records: which fields a version writes, and which values survive
the conversions that the file format imposes.
-/

namespace Dxf

/-- The value is representable in the pair that carries it.  The lossy conversions: an `i32`
written as `i16` must lie in its range; a `char` written as `i16` must be below 256; a double
written as an integer must be the double of an integer in range; an enum written as a boolean must
be one of the two values that a boolean is read as; the version must not be R11, which shares its
text with R12 (C29); a duration must be whole seconds, fewer than 2^53; a date must be one that
the conversion to days and back reproduces (C44 says what becomes of others). -/
def WConv.Fits : {t : Ty} → WConv t → t.den → Prop
  | _, .i32AsI16, v => -32768 ≤ (v : I32).toInt ∧ (v : I32).toInt < 32768
  | _, .chr, v => (v : Char).toNat < 256
  | _, .f64AsI16, v => ∃ n : I16, v = F64.ofInt n.toInt
  | _, .f64AsI32, v => ∃ n : I32, v = F64.ofInt n.toInt
  | _, .enumBool vals, v => vals.get v = 0 ∨ vals.get v = 1
  | _, .version, v => v ≠ Version.r11
  | _, .date, v => Date.ofDouble (Date.asDouble v) = .ok v
  | _, .dur, v => (v : Dur).nanos = 0 ∧ (v : Dur).secs.toNat < 2 ^ 53
  | _, _, _ => True

/-- The elements of a list value. -/
def Ty.elems {t : Ty} (v : (Ty.list t).den) : List t.den := v

/-- The vertex is representable: the identifier is zero if it is not written, and no width or
bulge is a negative zero (zeros are not written). -/
def LwVertex.Fits (withId : Bool) (v : LwVertex) : Prop :=
  (withId = false → v.id = 0#32) ∧
  ∀ x ∈ [v.startingWidth, v.endingWidth, v.bulge], F64.rustEq x F64.zero = true → x = F64.zero

/-- The value is representable in what is written for it: every element of a list, and for a
point of which only some coordinates are written the others have their default value.  Points
of a list with two coordinates have the third one zero; the vectors of coordinates used during
reading are empty. -/
def FWrite.Fits : {t : Ty} → FWrite t → t.den → t.den → Prop
  | _, .one _ c, _, v => c.Fits v
  | _, .many _ c, _, v => ∀ x ∈ Ty.elems v, c.Fits x
  | _, .axes codes, d, v => ∀ a : Axis, a ∉ codes.map Prod.fst → Point.axis v a = Point.axis d a
  | .pts three, .points _, _, v => PtAcc.xs v = [] ∧ PtAcc.ys v = [] ∧ PtAcc.zs v = [] ∧
    (three = false → ∀ q ∈ PtAcc.pts v, q.z = F64.zero)
  | _, .lw withId, _, v => ∀ x, List.Mem x v → LwVertex.Fits withId x

variable {ds : List Decl}

/-- The statement writes field `i`. -/
def GCmd.writes (g : GCmd ds) (i : Nat) : Bool :=
  match g.cmd with
  | .field j _ => j == i
  | _ => false

/-- Field `i` of `r` is written for version `v`. -/
def Written (cmds : List (GCmd ds)) (v : Version) (r : Rec ds) (i : Nat) : Prop :=
  ∃ g ∈ cmds, g.writes i ∧ g.holds v r

instance (cmds : List (GCmd ds)) (v : Version) (r : Rec ds) (i : Nat) :
    Decidable (Written cmds v r i) :=
  inferInstanceAs (Decidable (∃ g ∈ cmds, g.writes i ∧ g.holds v r))

/-- The value of field `i` is representable in everything that is written for it. -/
def Representable (cmds : List (GCmd ds)) (v : Version) (r : Rec ds) (i : Nat) : Prop :=
  ∀ g ∈ cmds, g.holds v r → ∀ w, g.cmd = .field i w → w.Fits (Rec.dflt ds i) (r i)

end Dxf
