import Verif.Model.FloatOps

/-! Single-precision floats: Rust's `d as f32` and `f64::from(f)`. -/

namespace Dxf

/-- Bit pattern of an `f32`. -/
abbrev F32 := BitVec 32

namespace F32

/-- Exponent field. -/
def expField (x : F32) : Nat := (x.toNat / 2 ^ 23) % 2 ^ 8
/-- Fraction field. -/
def fracField (x : F32) : Nat := x.toNat % 2 ^ 23
/-- Sign bit. -/
def neg (x : F32) : Bool := x.toNat / 2 ^ 31 = 1
def isNan (x : F32) : Bool := x.expField = 255 && x.fracField ≠ 0
def isInf (x : F32) : Bool := x.expField = 255 && x.fracField = 0

/-- Units of `2^-149` of the magnitude with the given low 31 bits. -/
def unitsOf (m : Nat) : Nat :=
  if m / 2 ^ 23 = 0 then m % 2 ^ 23 else (m % 2 ^ 23 + 2 ^ 23) * 2 ^ (m / 2 ^ 23 - 1)

/-- Bit pattern of infinity (magnitude part). -/
def infMag : Nat := 255 * 2 ^ 23

/-- The float with the given sign and low 31 bits. -/
def ofMag (neg : Bool) (m : Nat) : F32 := BitVec.ofNat 32 ((if neg then 2 ^ 31 else 0) + m)

/-- Low 31 bits of the float nearest to `p / q` units of `2^-149` (`q > 0`), ties to even,
overflow to infinity. -/
def magOfRat (p q : Nat) : Nat :=
  let s := (p / q).log2 + 1 - 24
  min (s * 2 ^ 23 + roundHalfEven p (q * 2 ^ s)) infMag

/-- The number of units of a double (`2^-1074`) in a unit of a float (`2^-149`). -/
@[irreducible] def ratio : Nat := 2 ^ 925

/-- Models `d as f32`: to the nearest, ties to even.  Simplification: every NaN becomes the same
NaN. -/
def narrow (d : F64) : F32 :=
  if d.isNan then 0x7fc00000#32
  else if d.isInf then ofMag d.neg infMag
  else ofMag d.neg (magOfRat d.units ratio)

/-- Models `f64::from(f)`, which is exact.  Simplification: every NaN becomes the same NaN. -/
def widen (x : F32) : F64 :=
  if x.isNan then F64.nan
  else if x.isInf then F64.ofMag x.neg F64.infMag
  else F64.ofMag x.neg (Dxf.magOfRat (unitsOf (x.toNat % 2 ^ 31) * ratio) 1)

/-- A double that was written as a float and read again. -/
def single (d : F64) : F64 := widen (narrow d)

end F32

end Dxf
