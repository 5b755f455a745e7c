import Verif.Model.Escape

/-! Numbers as text: Rust's integer and float formatting and parsing. -/

namespace Dxf

/-- Models `char::is_whitespace` (Unicode `White_Space`), used by `str::trim`. -/
def isWhitespace (c : Char) : Bool :=
  let n := c.toNat
  (9 ≤ n && n ≤ 13) || n = 0x20 || n = 0x85 || n = 0xA0 || n = 0x1680 ||
  (0x2000 ≤ n && n ≤ 0x200A) || n = 0x2028 || n = 0x2029 || n = 0x202F ||
  n = 0x205F || n = 0x3000

/-- Models `str::trim`. -/
def trim (s : Str) : Str :=
  ((s.dropWhile isWhitespace).reverse.dropWhile isWhitespace).reverse

/-- Rust's `{}` for an unsigned integer. -/
def fmtNat (n : Nat) : Str := (digits 10 n).map hexDigit

/-- Rust's `{}` for a signed integer. -/
def fmtInt (i : Int) : Str := if i < 0 then '-' :: fmtNat i.natAbs else fmtNat i.natAbs

/-- Decimal digit value. -/
def decVal? (c : Char) : Option Nat :=
  if 48 ≤ c.toNat ∧ c.toNat ≤ 57 then some (c.toNat - 48) else none

/-- Models `str::parse::<iN>()` of the Rust standard library for the range
`[lo, hi]`: optional sign, at least one decimal digit, range check. -/
def parseInt (lo hi : Int) (s : Str) : Option Int :=
  if (stripSign s).2 = [] then none
  else
    match digitsVal? 10 decVal? 0 (stripSign s).2 with
    | some n =>
      let v : Int := if (stripSign s).1 then -(n : Int) else n
      if lo ≤ v ∧ v ≤ hi then some v else none
    | none => none

/-- Models `parse_i32`, src/helper_functions.rs:250-255. -/
def parseI32 (s : Str) (offset : Nat) : Except DxfErr I32 :=
  match parseInt (-2 ^ 31) (2 ^ 31 - 1) (trim s) with
  | some v => .ok (BitVec.ofInt 32 v)
  | none => .error (.parseIntError offset)

/-- Models `parse_i64`, src/helper_functions.rs:262-267. -/
def parseI64 (s : Str) (offset : Nat) : Except DxfErr I64 :=
  match parseInt (-2 ^ 63) (2 ^ 63 - 1) (trim s) with
  | some v => .ok (BitVec.ofInt 64 v)
  | none => .error (.parseIntError offset)

/-! ### IEEE-754 doubles

The magnitude of a finite double is a natural number of *units* of `2^-1074`. -/

namespace F64

/-- Exponent field. -/
def expField (x : F64) : Nat := (x.bits.toNat / 2 ^ 52) % 2 ^ 11
/-- Fraction field. -/
def fracField (x : F64) : Nat := x.bits.toNat % 2 ^ 52
/-- Sign bit. -/
def neg (x : F64) : Bool := x.bits.toNat / 2 ^ 63 = 1

def isNan (x : F64) : Bool := x.expField = 2047 && x.fracField ≠ 0
def isInf (x : F64) : Bool := x.expField = 2047 && x.fracField = 0
def isFinite (x : F64) : Bool := x.expField ≠ 2047

/-- Units of `2^-1074` of the magnitude with the given low 63 bits. -/
def unitsOf (m : Nat) : Nat :=
  if m / 2 ^ 52 = 0 then m % 2 ^ 52 else (m % 2 ^ 52 + 2 ^ 52) * 2 ^ (m / 2 ^ 52 - 1)

/-- Magnitude of a finite double in units of `2^-1074`. -/
def units (x : F64) : Nat := unitsOf (x.bits.toNat % 2 ^ 63)

/-- Number of units of `2^-1074` in 1.0. -/
@[irreducible] def oneUnits : Nat := 2 ^ 1074

/-- Bit pattern of infinity (magnitude part). -/
def infMag : Nat := 2047 * 2 ^ 52

/-- The double with the given sign and low 63 bits. -/
def ofMag (neg : Bool) (m : Nat) : F64 := ⟨BitVec.ofNat 64 ((if neg then 2 ^ 63 else 0) + m)⟩

/-- Rust's `f64::NAN`. -/
def nan : F64 := ⟨0x7ff8000000000000#64⟩

def zero : F64 := ⟨0⟩

end F64

/-- `p / q` rounded to the nearest integer, ties to even. -/
def roundHalfEven (p q : Nat) : Nat :=
  let d := p / q
  let r := p % q
  if 2 * r < q then d
  else if q < 2 * r then d + 1
  else if d % 2 = 0 then d else d + 1

/-- Low 63 bits of the double nearest to `p / q` units (`q > 0`), ties to even, overflow to
infinity: the correctly rounded conversion that Rust's `str::parse::<f64>` performs.
`s` is the binary exponent that leaves a 53-bit significand; exponent field and fraction
concatenate to `s * 2^52 + significand`. -/
def magOfRat (p q : Nat) : Nat :=
  let s := (p / q).log2 + 1 - 53
  min (s * 2 ^ 52 + roundHalfEven p (q * 2 ^ s)) F64.infMag

/-- Takes a maximal run of decimal digits. -/
def takeDigits (s : Str) : Str × Str :=
  (s.takeWhile fun c => (decVal? c).isSome, s.dropWhile fun c => (decVal? c).isSome)

/-- ASCII lower-casing. -/
def asciiLower (c : Char) : Char :=
  if 65 ≤ c.toNat ∧ c.toNat ≤ 90 then Char.ofNat (c.toNat + 32) else c

/-- Optional exponent part of the float grammar: `some e` if well-formed and the input is
used up. -/
def parseExp (s : Str) : Option Int :=
  match s with
  | [] => some 0
  | e :: r =>
    if e = 'e' ∨ e = 'E' then
      if (stripSign r).2 = [] then none
      else
        match digitsVal? 10 decVal? 0 (stripSign r).2 with
        | some n => some (if (stripSign r).1 then -(n : Int) else n)
        | none => none
    else none

/-- Optional fraction `.digits`: the fraction digits and the rest. -/
def takeFraction (s : Str) : Str × Str :=
  match s with
  | [] => ([], [])
  | c :: t => if c = '.' then takeDigits t else ([], c :: t)

/-- Decimal number `digits [. digits] [exponent]` as mantissa and power of ten. -/
def parseDecimal (s : Str) : Option (Nat × Int) :=
  let ip := (takeDigits s).1
  let f := takeFraction (takeDigits s).2
  if ip = [] ∧ f.1 = [] then none
  else
    match digitsVal? 10 decVal? 0 (ip ++ f.1), parseExp f.2 with
    | some m, some e => some (m, e - (f.1.length : Int))
    | _, _ => none

/-- Models `str::parse::<f64>()` of the Rust standard library (grammar of
`f64::from_str`, correctly rounded).  Simplification: the standard library saturates
exponents beyond 65535; the model uses the exact exponent (the results agree unless the
mantissa has tens of thousands of digits). -/
def parseF64? (s : Str) : Option F64 :=
  let neg := (stripSign s).1
  let body := (stripSign s).2
  match parseDecimal body with
  | some (m, e) =>
    some (F64.ofMag neg
      (if 0 ≤ e then magOfRat (m * 10 ^ e.toNat * F64.oneUnits) 1
       else magOfRat (m * F64.oneUnits) (10 ^ (-e).toNat)))
  | none =>
    let l := body.map asciiLower
    if l = str!"nan" then some (if neg then ⟨0xfff8000000000000#64⟩ else F64.nan)
    else if l = str!"inf" ∨ l = str!"infinity" then some (F64.ofMag neg F64.infMag)
    else none

/-- Models `parse_f64`, src/helper_functions.rs:237-242. -/
def parseF64 (s : Str) (offset : Nat) : Except DxfErr F64 :=
  match parseF64? (trim s) with
  | some d => .ok d
  | none => .error (.parseFloatError offset)

/-- Rust's `d as i16` for a double: truncation toward zero, saturating, NaN to 0. -/
def F64.toI16 (x : F64) : I16 :=
  if x.isNan then 0
  else if x.isInf then (if x.neg then BitVec.ofInt 16 (-32768) else BitVec.ofInt 16 32767)
  else
    let t : Int := (x.units / F64.oneUnits : Nat)
    let v : Int := if x.neg then -t else t
    BitVec.ofInt 16 (max (-32768) (min 32767 v))

/-- Models `parse_i16`, src/helper_functions.rs:274-279 (through `f64`). -/
def parseI16 (s : Str) (offset : Nat) : Except DxfErr I16 :=
  match parseF64? (trim s) with
  | some d => .ok d.toI16
  | none => .error (.parseFloatError offset)

/-- Rust's `{:.12}` for a double (exact decimal expansion, ties to even). -/
def fmtFixed12 (x : F64) : Str :=
  if x.isNan then str!"NaN"
  else
    let sign := if x.neg then str!"-" else []
    if x.isInf then sign ++ str!"inf"
    else
      let n := roundHalfEven (x.units * 10 ^ 12) F64.oneUnits
      sign ++ fmtNat (n / 10 ^ 12) ++ '.' :: padLeft 12 '0' (fmtNat (n % 10 ^ 12))

/-- Models the `while val.ends_with('0') { val.pop(); }` loop,
src/code_pair_value.rs:241-243. -/
def trimZeros (s : Str) : Str := (s.reverse.dropWhile (· = '0')).reverse

/-- Models `format_f64`, src/code_pair_value.rs:236-251. -/
def formatF64 (x : F64) : Str :=
  let v := trimZeros (fmtFixed12 x)
  if v.getLast? = some '.' then v ++ ['0'] else v

end Dxf
