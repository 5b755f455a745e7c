import Verif.Model.Num

/-! Arithmetic on doubles: each operation is the exact result rounded to nearest, ties to even. -/

namespace Dxf.F64

/-- Signed number of units of `2^-1074` of a finite double. -/
def sunits (x : F64) : Int := if x.neg then -(x.units : Int) else x.units

/-- `n as f64` for an integer. -/
def ofInt (n : Int) : F64 := ofMag (n < 0) (magOfRat (n.natAbs * oneUnits) 1)

/-- `-x`. -/
def negate (x : F64) : F64 := ofMag (!x.neg) (x.bits.toNat % 2 ^ 63)

/-- `x + y`.  Simplification: every NaN result is the same one. -/
def add (x y : F64) : F64 :=
  if x.isNan || y.isNan then nan
  else if x.isInf then (if y.isInf && x.neg != y.neg then nan else x)
  else if y.isInf then y
  else
    let s := x.sunits + y.sunits
    if s = 0 then ofMag (x.neg && y.neg) 0 else ofMag (s < 0) (magOfRat s.natAbs 1)

/-- `x - y`. -/
def sub (x y : F64) : F64 := x.add y.negate

/-- `x * y`. -/
def mul (x y : F64) : F64 :=
  if x.isNan || y.isNan then nan
  else if x.isInf || y.isInf then
    if (x.isFinite && x.units = 0) || (y.isFinite && y.units = 0) then nan
    else ofMag (x.neg != y.neg) infMag
  else ofMag (x.neg != y.neg) (magOfRat (x.units * y.units) oneUnits)

/-- `x / y`. -/
def div (x y : F64) : F64 :=
  if x.isNan || y.isNan then nan
  else if x.isInf then (if y.isInf then nan else ofMag (x.neg != y.neg) infMag)
  else if y.isInf then ofMag (x.neg != y.neg) 0
  else if y.units = 0 then (if x.units = 0 then nan else ofMag (x.neg != y.neg) infMag)
  else ofMag (x.neg != y.neg) (magOfRat (x.units * oneUnits) y.units)

/-- Truncation toward zero of a finite double. -/
def trunc (x : F64) : Int :=
  if x.neg then -((x.units / oneUnits : Nat) : Int) else (x.units / oneUnits : Nat)

/-- Rust's `x as iN`/`x as uN` for the range `[lo, hi]`: truncation toward zero, saturating, NaN
to 0. -/
def toIntSat (lo hi : Int) (x : F64) : Int :=
  if x.isNan then 0
  else if x.isInf then (if x.neg then lo else hi)
  else max lo (min hi x.trunc)

/-- `num_traits::ToPrimitive::to_i64` for a double: truncation, `None` out of range. -/
def toI64? (x : F64) : Option Int :=
  if x.isNan || x.isInf then none
  else if -2 ^ 63 ≤ x.trunc ∧ x.trunc < 2 ^ 63 then some x.trunc else none

end Dxf.F64
