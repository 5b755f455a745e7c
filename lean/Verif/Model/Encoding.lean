import Verif.Model.Hex

/-! The parts of `encoding_rs` that `dxf-rs` uses, and UTF-8 encoding of Rust strings. -/

namespace Dxf

/-- The string encodings of the model: `encoding_rs::WINDOWS_1252` (the default of
`Drawing::load`, src/drawing.rs:106-111) and `encoding_rs::UTF_8`
(`read_as_utf8`, src/code_pair_iter.rs:54-56).  Other encodings a caller may pass to
`load_with_encoding` are not modelled. -/
inductive Enc where
  | win1252 | utf8
  deriving DecidableEq, Repr

/-- A byte from a number. -/
def byte (n : Nat) : Byte := BitVec.ofNat 8 n

/-- UTF-8 encoding of one character. -/
def utf8EncodeChar (c : Char) : List Byte :=
  let n := c.toNat
  if n < 0x80 then [byte n]
  else if n < 0x800 then [byte (0xC0 + n / 64), byte (0x80 + n % 64)]
  else if n < 0x10000 then
    [byte (0xE0 + n / 4096), byte (0x80 + n / 64 % 64), byte (0x80 + n % 64)]
  else
    [byte (0xF0 + n / 262144), byte (0x80 + n / 4096 % 64), byte (0x80 + n / 64 % 64),
     byte (0x80 + n % 64)]

/-- Rust's `str::as_bytes`. -/
def utf8Encode (s : Str) : List Byte := s.flatMap utf8EncodeChar

/-- A UTF-8 continuation byte. -/
def isCont (n : Nat) : Bool := 0x80 ≤ n && n < 0xC0

/-- Strict UTF-8 decoding; `none` for any malformed sequence (`encoding_rs` then reports
`had_errors`).  Overlong forms, surrogates and values above U+10FFFF are malformed. -/
def utf8Decode : List Byte → Option Str
  | [] => some []
  | b0 :: r0 =>
    let n0 := b0.toNat
    if n0 < 0x80 then
      (utf8Decode r0).map (Char.ofNat n0 :: ·)
    else if n0 < 0xC2 then none
    else
      match r0 with
      | [] => none
      | b1 :: r1 =>
        let n1 := b1.toNat
        if !isCont n1 then none
        else if n0 < 0xE0 then
          (utf8Decode r1).map (Char.ofNat ((n0 - 0xC0) * 64 + (n1 - 0x80)) :: ·)
        else
          match r1 with
          | [] => none
          | b2 :: r2 =>
            let n2 := b2.toNat
            if !isCont n2 then none
            else if n0 < 0xF0 then
              let v := (n0 - 0xE0) * 4096 + (n1 - 0x80) * 64 + (n2 - 0x80)
              if v < 0x800 ∨ (0xD800 ≤ v ∧ v < 0xE000) then none
              else (utf8Decode r2).map (Char.ofNat v :: ·)
            else
              match r2 with
              | [] => none
              | b3 :: r3 =>
                let n3 := b3.toNat
                if !isCont n3 then none
                else if n0 < 0xF5 then
                  let v := (n0 - 0xF0) * 262144 + (n1 - 0x80) * 4096 + (n2 - 0x80) * 64
                    + (n3 - 0x80)
                  if v < 0x10000 ∨ 0x110000 ≤ v then none
                  else (utf8Decode r3).map (Char.ofNat v :: ·)
                else none

/-- The characters of bytes 0x80-0x9F in WINDOWS-1252 (WHATWG index). -/
def win1252High : List Nat :=
  [0x20AC, 0x81, 0x201A, 0x0192, 0x201E, 0x2026, 0x2020, 0x2021,
   0x02C6, 0x2030, 0x0160, 0x2039, 0x0152, 0x8D, 0x017D, 0x8F,
   0x90, 0x2018, 0x2019, 0x201C, 0x201D, 0x2022, 0x2013, 0x2014,
   0x02DC, 0x2122, 0x0161, 0x203A, 0x0153, 0x9D, 0x017E, 0x0178]

/-- WINDOWS-1252 decoding of one byte (total). -/
def win1252Char (b : Byte) : Char :=
  if 0x80 ≤ b.toNat ∧ b.toNat < 0xA0 then
    match win1252High[b.toNat - 0x80]? with
    | some n => Char.ofNat n
    | none => '?' -- unreachable: the table has 32 entries
  else Char.ofNat b.toNat

/-- UTF-16 decoding of code units; `none` for unpaired surrogates. -/
def utf16Decode : List Nat → Option Str
  | [] => some []
  | u :: us =>
    if u < 0xD800 ∨ 0xE000 ≤ u then (utf16Decode us).map (Char.ofNat u :: ·)
    else if 0xDC00 ≤ u then none
    else
      match us with
      | [] => none
      | v :: vs =>
        if 0xDC00 ≤ v ∧ v < 0xE000 then
          (utf16Decode vs).map
            (Char.ofNat (0x10000 + (u - 0xD800) * 1024 + (v - 0xDC00)) :: ·)
        else none

/-- Groups bytes into UTF-16 code units; `none` for an odd number of bytes. -/
def utf16Units (bigEndian : Bool) : List Byte → Option (List Nat)
  | [] => some []
  | [_] => none
  | a :: b :: r =>
    (utf16Units bigEndian r).map
      ((if bigEndian then a.toNat * 256 + b.toNat else b.toNat * 256 + a.toNat) :: ·)

/-- Models `Encoding::decode` of `encoding_rs`: a byte order mark overrides the encoding
and is removed; `none` stands for `had_errors == true`. -/
def decode (enc : Enc) (bs : List Byte) : Option Str :=
  match bs with
  | 0xEF#8 :: 0xBB#8 :: 0xBF#8 :: r => utf8Decode r
  | 0xFE#8 :: 0xFF#8 :: r => (utf16Units true r).bind utf16Decode
  | 0xFF#8 :: 0xFE#8 :: r => (utf16Units false r).bind utf16Decode
  | _ =>
    match enc with
    | .win1252 => some (bs.map win1252Char)
    | .utf8 => utf8Decode bs

/-- Models the byte loop of `read_line`, src/helper_functions.rs:302-321: `i` is the
position in the line (only 0, 1, 2 matter), `skip` is `skipping_bom`.  Returns the bytes
of the line (without the newline) and the remaining input. -/
def lineBytes (allowBom : Bool) : Nat → Bool → List Byte → List Byte × List Byte
  | _, _, [] => ([], [])
  | i, skip, b :: bs =>
    if i = 0 ∧ b = 0xEF#8 ∧ allowBom then lineBytes allowBom (i + 1) true bs
    else if ((i = 1 ∧ b = 0xBB#8) ∨ (i = 2 ∧ b = 0xBF#8)) ∧ skip then
      lineBytes allowBom (i + 1) skip bs
    else if b = 0x0A#8 then ([], bs)
    else
      let r := lineBytes allowBom (i + 1) skip bs
      (b :: r.1, r.2)

/-- Models `if result.ends_with('\r') { result.pop(); }`, src/helper_functions.rs:329-331. -/
def stripCr (s : Str) : Str := if s.getLast? = some '\r' then s.dropLast else s

/-- Models `read_line`, src/helper_functions.rs:294-334; also returns the remaining
input. -/
def readLine (allowBom : Bool) (enc : Enc) (bs : List Byte) :
    Except DxfErr Str × List Byte :=
  let r := lineBytes allowBom 0 false bs
  match decode enc r.1 with
  | some s => (.ok (stripCr s), r.2)
  | none => (.error .malformedString, r.2)

end Dxf
