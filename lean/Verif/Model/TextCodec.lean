import Verif.Model.Encoding
import Verif.Model.ExpectedType

/-! The text file format: src/code_pair_writer.rs and `TextCodePairIter` of
src/code_pair_iter.rs. -/

namespace Dxf

/-- Models `Display`/`Debug for CodePairValue`, src/code_pair_value.rs:102-126. -/
def CodePairValue.display : CodePairValue → Str
  | .boolean s => fmtInt s.toInt
  | .integer i => padLeft 9 ' ' (fmtInt i.toInt)
  | .long l => fmtInt l.toInt
  | .short s => padLeft 6 ' ' (fmtInt s.toInt)
  | .double d => formatF64 d
  | .str s => s
  | .binary b => fmtBinary b

/-- The value line of `write_ascii_code_pair` without its line end,
src/code_pair_writer.rs:53-64. -/
def valueLine (textAsAscii : Bool) (v : CodePairValue) : Str :=
  match v with
  | .str s => if textAsAscii then escapeUnicode (escapeControl s) else escapeControl s
  | v => v.display

/-- Models `write_ascii_code_pair`, src/code_pair_writer.rs:50-66: the characters written
(before UTF-8 encoding by `write_fmt`). -/
def asciiPairText (textAsAscii : Bool) (p : CodePair) : Str :=
  padLeft 3 ' ' (fmtInt p.code) ++ str!"\r\n" ++ valueLine textAsAscii p.value ++ str!"\r\n"

/-- The bytes `write_ascii_code_pair` writes. -/
def writeAsciiPair (textAsAscii : Bool) (p : CodePair) : List Byte :=
  utf8Encode (asciiPairText textAsAscii p)

/-- The bytes of a whole text file: `save_internal` with `as_text == true`,
src/drawing.rs:190-203 (`write_prelude` writes nothing for text). -/
def writeAscii (textAsAscii : Bool) (ps : List CodePair) : List Byte :=
  ps.flatMap (writeAsciiPair textAsAscii)

/-- What one call of a pair iterator's `next` returns: `none` is `None`. -/
abbrev Item := Option (Except DxfErr CodePair)

/-- Models `TextCodePairIter`, src/code_pair_iter.rs:45-51.  `firstLine` is `some l`
until the first line has been used (`read_first_line == false`). -/
structure TextIter where
  bytes : List Byte
  enc : Enc
  firstLine : Option Str
  offset : Nat
  deriving DecidableEq, Repr

namespace TextIter

/-- Models `read_as_utf8`, src/code_pair_iter.rs:53-57. -/
def readAsUtf8 (t : TextIter) : TextIter := { t with enc := .utf8 }

/-- Models the value construction of `read_code_pair`, src/code_pair_iter.rs:117-149. -/
def parseValue (enc : Enc) (t : ExpectedType) (line : Str) (offset : Nat) :
    Except DxfErr CodePairValue :=
  match t with
  | .boolean => (parseI16 line offset).map .boolean
  | .integer => (parseI32 line offset).map .integer
  | .long => (parseI64 line offset).map .long
  | .short => (parseI16 line offset).map .short
  | .double => (parseF64 line offset).map .double
  | .str =>
    let line := if enc = .win1252 then unescapeUnicode line else line
    .ok (.str (unescapeString line))
  | .binary => (parseHexString line offset).map .binary

/-- Models the part of `read_code_pair` after the code has been parsed,
src/code_pair_iter.rs:105-151. -/
def readValue (t : TextIter) (code : I32) : Item × TextIter :=
  let codeOffset := t.offset
  let t := { t with offset := t.offset + 1 }
  let r := readLine false t.enc t.bytes
  let t := { t with bytes := r.2 }
  match r.1 with
  | .error e => (some (.error e), t)
  | .ok line =>
    match ExpectedType.new code.toInt with
    | none => (some (.error (.unexpectedEnumValue t.offset)), t)
    | some ty =>
      match parseValue t.enc ty line t.offset with
      | .error e => (some (.error e), t)
      | .ok v => (some (.ok ⟨code.toInt, v, codeOffset⟩), t)

/-- Models the code line part of `read_code_pair`, src/code_pair_iter.rs:82-103. -/
def readCode (t : TextIter) : Except DxfErr Str × TextIter :=
  match t.firstLine with
  | some l => (.ok l, { t with firstLine := none })
  | none =>
    let r := readLine true .win1252 t.bytes
    (r.1, { t with offset := t.offset + 1, bytes := r.2 })

/-- Models `TextCodePairIter::read_code_pair`, src/code_pair_iter.rs:81-152. -/
def next (t : TextIter) : Item × TextIter :=
  let r := t.readCode
  match r.1 with
  | .error e => (some (.error e), r.2)
  | .ok line =>
    if trim line = [] then (none, r.2)
    else
      match parseI32 (trim line) r.2.offset with
      | .error e => (some (.error e), r.2)
      | .ok code => r.2.readValue code

/-- Nothing is left to read. -/
def done (t : TextIter) : Bool := t.bytes.isEmpty && t.firstLine.isNone

/-- All results of repeatedly calling `next` until the input is used up (afterwards `next`
returns `None` forever).  `fuel` bounds the number of calls. -/
def items : Nat → TextIter → List Item
  | 0, _ => []
  | fuel + 1, t => if t.done then [] else (t.next).1 :: items fuel (t.next).2

/-- All results of the iterator. -/
def all (t : TextIter) : List Item := items (t.bytes.length + 1) t

end TextIter

end Dxf
