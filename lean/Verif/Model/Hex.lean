import Verif.Model.Num

/-! Hex strings and handles. -/

namespace Dxf

/-- Models the `parse_hex_string` loop, src/helper_functions.rs:512-525, with
`char_to_value` (489-510).  `complete` is `complete_byte`, `cur` is `current_byte`
(always below 16, so `current_byte * 16 + value` does not overflow). -/
def parseHexLoop (offset : Nat) : Bool → Nat → Str → Except DxfErr (List Byte)
  | _, _, [] => .ok []
  | complete, cur, c :: cs =>
    match hexVal? c with
    | none => .error (.parseError offset)
    | some v =>
      if complete then
        match parseHexLoop offset false cur cs with
        | .ok bs => .ok (BitVec.ofNat 8 (cur * 16 + v) :: bs)
        | .error e => .error e
      else parseHexLoop offset true v cs

/-- Number of bytes of a character in UTF-8 (Rust's `char::len_utf8`). -/
def utf8Size (c : Char) : Nat :=
  if c.toNat < 0x80 then 1 else if c.toNat < 0x800 then 2
  else if c.toNat < 0x10000 then 3 else 4

/-- Rust's `str::len` (bytes). -/
def strLen (s : Str) : Nat := (s.map utf8Size).sum

/-- Models `parse_hex_string`, src/helper_functions.rs:488-526. -/
def parseHexString (s : Str) (offset : Nat) : Except DxfErr (List Byte) :=
  parseHexLoop offset (strLen s % 2 ≠ 0) 0 s

/-- Rust's `{:02X}` for one byte, src/code_pair_value.rs:114. -/
def fmtByteHex (b : Byte) : Str := padLeft 2 '0' (fmtHex b.toNat)

/-- Models the `Binary` arm of `Debug for CodePairValue`, src/code_pair_value.rs:111-117. -/
def fmtBinary (bs : List Byte) : Str := bs.flatMap fmtByteHex

/-- Models `Handle(pub u64)`, src/handle.rs:3. -/
abbrev Handle := BitVec 64

/-- Models `Handle::as_string`, src/handle.rs:15-17. -/
def Handle.asString (h : Handle) : Str := fmtHex h.toNat

/-- Models `BigEndian::read_u64`: the first eight bytes, most significant first. -/
def readU64BE (bs : List Byte) : Handle :=
  BitVec.ofNat 64 ((bs.take 8).foldl (fun a b => a * 256 + b.toNat) 0)

/-- Models `while bytes.len() < 8 { bytes.insert(0, 0); }`, src/code_pair.rs:101-103. -/
def padTo8 (bs : List Byte) : List Byte := List.replicate (8 - bs.length) 0 ++ bs

/-- Models `CodePair::as_handle`, src/code_pair.rs:98-105. -/
def CodePair.asHandle (p : CodePair) : Except DxfErr Handle :=
  match p.assertString with
  | .error e => .error e
  | .ok s =>
    match parseHexString (trim s) p.offset with
    | .error e => .error e
    | .ok bs => .ok (readU64BE (padTo8 bs))

end Dxf
