import Verif.Model.TextCodec

/-! The binary file format: src/code_pair_writer.rs and `BinaryCodePairIter` of
src/code_pair_iter.rs. -/

namespace Dxf

/-- Little-endian bytes of an `n`-byte word (`byteorder::LittleEndian`). -/
def leBytes : Nat → Nat → List Byte
  | 0, _ => []
  | n + 1, v => byte v :: leBytes n (v / 256)

/-- Value of little-endian bytes. -/
def leVal : List Byte → Nat
  | [] => 0
  | b :: bs => b.toNat + 256 * leVal bs

/-- Models the code part of `write_binary_code_pair`, src/code_pair_writer.rs:68-76;
`wide` is `version >= R13`.  `code as i16` and `code as u8` truncate. -/
def binCodeBytes (wide : Bool) (code : Int) : List Byte :=
  if wide then leBytes 2 (BitVec.ofInt 16 code).toNat
  else if code ≥ 255 then byte 255 :: leBytes 2 (BitVec.ofInt 16 code).toNat
  else [BitVec.ofInt 8 code]

/-- Models the value part of `write_binary_code_pair`, src/code_pair_writer.rs:78-104. -/
def binValueBytes (wide : Bool) : CodePairValue → List Byte
  | .boolean s => if wide then [byte s.toNat] else leBytes 2 s.toNat
  | .integer i => leBytes 4 i.toNat
  | .long l => leBytes 8 l.toNat
  | .short s => leBytes 2 s.toNat
  | .double d => leBytes 8 d.bits.toNat
  | .str s => utf8Encode (escapeControl s) ++ [byte 0]
  | .binary b => byte b.length :: b

/-- Models `write_binary_code_pair`, src/code_pair_writer.rs:67-107. -/
def writeBinPair (wide : Bool) (p : CodePair) : List Byte :=
  binCodeBytes wide p.code ++ binValueBytes wide p.value

/-- Models `write_prelude` for a binary file, src/code_pair_writer.rs:33-42. -/
def binPrelude : List Byte := utf8Encode (str!"AutoCAD Binary DXF\r\n") ++ [byte 0x1A, byte 0]

/-- The bytes of a whole binary file: `save_internal` with `as_text == false`,
src/drawing.rs:190-203. -/
def writeBin (wide : Bool) (ps : List CodePair) : List Byte :=
  binPrelude ++ ps.flatMap (writeBinPair wide)

/-- Models `BinaryCodePairIter`, src/code_pair_iter.rs:156-161. -/
structure BinIter where
  bytes : List Byte
  detected : Bool
  wide : Bool
  offset : Nat
  deriving DecidableEq, Repr

/-- Reads `n` bytes (`read_u8_strict`, `read_i16`, `read_i32`, `read_i64`, `read_f64`,
src/helper_functions.rs:435-486): when the input is too short all of it has been
consumed and the result is `UnexpectedEndOfInput`. -/
def readBytes (n : Nat) (bs : List Byte) : Except DxfErr (List Byte) × List Byte :=
  if n ≤ bs.length then (.ok (bs.take n), bs.drop n) else (.error .unexpectedEndOfInput, [])

/-- Models `read_string_binary`, src/code_pair_iter.rs:272-284 (`c as char`: Latin-1). -/
def readStringBin : List Byte → Except DxfErr Str × List Byte
  | [] => (.error .unexpectedEndOfInput, [])
  | b :: bs =>
    if b = 0#8 then (.ok [], bs)
    else
      let r := readStringBin bs
      (r.1.map (Char.ofNat b.toNat :: ·), r.2)

namespace BinIter

/-- Result of reading a value: the value with the number of bytes to add to the offset,
and the new iterator state. -/
abbrev ValRes := Except DxfErr (CodePairValue × Nat) × BinIter

/-- Reads `n` little-endian bytes and converts them. -/
def readWord (t : BinIter) (n : Nat) (f : Nat → CodePairValue) : ValRes :=
  let r := readBytes n t.bytes
  (r.1.map fun bs => (f (leVal bs), n), { t with bytes := r.2 })

/-- Models the `ExpectedType::Str` arm, src/code_pair_iter.rs:240-256. -/
def readStr (t : BinIter) (code : Int) : ValRes :=
  let r := readStringBin t.bytes
  let t := { t with bytes := r.2 }
  match r.1 with
  | .error e => (.error e, t)
  | .ok v =>
    if !t.detected && code = 0 && v.isEmpty then
      let t := { t with wide := true, offset := t.offset + 1 }
      let r := readStringBin t.bytes
      let t := { t with bytes := r.2 }
      match r.1 with
      | .error e => (.error e, t)
      | .ok v => (.ok (.str (unescapeString v), strLen v + 1), t)
    else (.ok (.str (unescapeString v), strLen v + 1), t)

/-- Models the `ExpectedType::Binary` arm, src/code_pair_iter.rs:257-265. -/
def readChunk (t : BinIter) : ValRes :=
  let r := readBytes 1 t.bytes
  let t := { t with bytes := r.2 }
  match r.1 with
  | .error e => (.error e, t)
  | .ok l =>
    let n := leVal l
    let r := readBytes n t.bytes
    (r.1.map fun bs => (.binary bs, n + 1), { t with bytes := r.2 })

/-- Models the value part of `read_code_pair`, src/code_pair_iter.rs:211-266. -/
def readValue (t : BinIter) (code : Int) (ty : ExpectedType) : ValRes :=
  match ty with
  | .boolean =>
    if t.wide then t.readWord 1 fun n => .boolean (BitVec.ofNat 16 n)
    else t.readWord 2 fun n => .boolean (BitVec.ofNat 16 n)
  | .integer => t.readWord 4 fun n => .integer (BitVec.ofNat 32 n)
  | .long => t.readWord 8 fun n => .long (BitVec.ofNat 64 n)
  | .short => t.readWord 2 fun n => .short (BitVec.ofNat 16 n)
  | .double => t.readWord 8 fun n => .double ⟨BitVec.ofNat 64 n⟩
  | .str => t.readStr code
  | .binary => t.readChunk

/-- Models the code part of `read_code_pair`, src/code_pair_iter.rs:186-204. -/
def readCode (t : BinIter) : Option (Except DxfErr Int) × BinIter :=
  match t.bytes with
  | [] => (none, t)
  | b :: bs =>
    let t := { t with bytes := bs, offset := t.offset + 1 }
    if t.wide then
      let r := readBytes 1 t.bytes
      match r.1 with
      | .error e => (some (.error e), { t with bytes := r.2 })
      | .ok h =>
        (some (.ok ((b.toNat : Int) + (leVal h : Int) * 256)),
         { t with bytes := r.2, offset := t.offset + 1 })
    else if b = 255#8 then
      let r := readBytes 2 t.bytes
      match r.1 with
      | .error e => (some (.error e), { t with bytes := r.2 })
      | .ok h =>
        (some (.ok (BitVec.ofNat 16 (leVal h)).toInt),
         { t with bytes := r.2, offset := t.offset + 2 })
    else (some (.ok (b.toNat : Int)), t)

/-- Models `BinaryCodePairIter::read_code_pair`, src/code_pair_iter.rs:185-271. -/
def next (t : BinIter) : Item × BinIter :=
  let r := t.readCode
  match r.1 with
  | none => (none, r.2)
  | some (.error e) => (some (.error e), r.2)
  | some (.ok code) =>
    match ExpectedType.new code with
    | none => (some (.error (.unexpectedEnumValue r.2.offset)), r.2)
    | some ty =>
      let v := r.2.readValue code ty
      match v.1 with
      | .error e => (some (.error e), v.2)
      | .ok (val, n) =>
        let t := { v.2 with offset := v.2.offset + n, detected := true }
        (some (.ok ⟨code, val, t.offset⟩), t)

/-- All results of repeatedly calling `next` until the input is used up. -/
def items : Nat → BinIter → List Item
  | 0, _ => []
  | fuel + 1, t => if t.bytes.isEmpty then [] else (t.next).1 :: items fuel (t.next).2

/-- All results of the iterator. -/
def all (t : BinIter) : List Item := items (t.bytes.length + 1) t

end BinIter

/-- Models `new_code_pair_iter_from_reader`, src/code_pair_iter.rs:289-323: the stream of
pair results for the bytes after the first line.  The second list is the stream as it
would be read after `read_as_utf8` (aligned item by item with the first; the binary
reader ignores `read_as_utf8`). -/
def newPairIter (enc : Enc) (firstLine : Str) (bytes : List Byte) :
    Except DxfErr (List Item × List Item) :=
  if firstLine = str!"AutoCAD Binary DXF" then
    match bytes with
    | [] => .error .unexpectedEndOfInput
    | b :: bs =>
      if b ≠ 0x1A#8 then .error (.unexpectedByte 0x1A#8 18)
      else
        match bs with
        | [] => .error .unexpectedEndOfInput
        | c :: cs =>
          if c ≠ 0#8 then .error (.unexpectedByte 0#8 19)
          else
            let l := BinIter.all ⟨cs, false, false, 20⟩
            .ok (l, l)
  else
    let t : TextIter := ⟨bytes, enc, some firstLine, 1⟩
    .ok (t.all, t.readAsUtf8.all)

/-- The pair stream of a file: `Drawing::load_with_encoding`, src/drawing.rs:113-128,
up to the DXB test (a file whose first line is "AutoCAD DXB 1.0" is not a pair
stream and gives `none`). -/
def fileItems (enc : Enc) (file : List Byte) :
    Except DxfErr (Option (List Item × List Item)) :=
  let r := readLine true enc file
  match r.1 with
  | .error e => .error e
  | .ok l =>
    if l = str!"AutoCAD DXB 1.0" then .ok none
    else (newPairIter enc l r.2).map some

end Dxf
