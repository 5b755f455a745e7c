/-!
# Basic vocabulary of the model

Rust types and the error type of `dxf-rs` as Lean data.
-/

/-- `str!"abc"` is the explicit character list `['a', 'b', 'c']`; the kernel can
evaluate it, unlike a `String` literal. -/
syntax:max (name := strLit) "str!" str : term
macro_rules
  | `(str! $s:str) => do
    let cs := s.getString.toList.toArray.map fun c => Lean.Syntax.mkCharLit c
    `(([$cs,*] : List Char))

namespace Dxf

/-- Rust `String`/`&str`: a sequence of Unicode scalar values (Lean `Char` and Rust
`char` range over the same values). -/
abbrev Str := List Char

/-- Rust `u8`. -/
abbrev Byte := BitVec 8
/-- Rust `i16`. -/
abbrev I16 := BitVec 16
/-- Rust `i32`. -/
abbrev I32 := BitVec 32
/-- Rust `i64`. -/
abbrev I64 := BitVec 64

/-- Rust `f64`, represented by its IEEE-754 bit pattern. -/
structure F64 where
  bits : BitVec 64
  deriving DecidableEq, Repr

/-- Models `CodePairValue`, src/code_pair_value.rs:8-16. -/
inductive CodePairValue where
  | boolean (v : I16)
  | integer (v : I32)
  | long (v : I64)
  | short (v : I16)
  | double (v : F64)
  | str (v : Str)
  | binary (v : List Byte)
  deriving DecidableEq, Repr

/-- Models `CodePair`, src/code_pair.rs:14-18.  The `i32` code is an `Int`; the readers
only produce codes from the table of src/expected_type.rs. -/
structure CodePair where
  code : Int
  value : CodePairValue
  offset : Nat := 0
  deriving DecidableEq, Repr

/-- Models `DxfError`, src/dxf_error.rs.  Message texts and wrapped foreign errors are
dropped; offsets are kept.  `panic` stands for a Rust panic and `outOfFuel` for
exhausted recursion fuel of the model (proved never to be produced). -/
inductive DxfErr where
  | ioError
  | parseFloatError (off : Nat)
  | parseIntError (off : Nat)
  | parseError (off : Nat)
  | unexpectedCode (code : Int) (off : Nat)
  | unexpectedCodePair (p : CodePair)
  | unexpectedByte (b : Byte) (off : Nat)
  | unexpectedEndOfInput
  | unexpectedEnumValue (off : Nat)
  | unexpectedEmptySet
  | expectedTableType (off : Nat)
  | wrongValueType (off : Nat)
  | invalidBinaryFile
  | malformedString
  | wrongItemType
  | imageError
  | panic
  | outOfFuel
  deriving DecidableEq, Repr

deriving instance DecidableEq for Except

namespace CodePair

/-- Models `CodePair::new_str`/`new_string`, src/code_pair.rs:28-33. -/
def newStr (code : Int) (v : Str) : CodePair := ⟨code, .str v, 0⟩
/-- Models `CodePair::new_binary`, src/code_pair.rs:34-36. -/
def newBinary (code : Int) (v : List Byte) : CodePair := ⟨code, .binary v, 0⟩
/-- Models `CodePair::new_i16`, src/code_pair.rs:37-39. -/
def newI16 (code : Int) (v : I16) : CodePair := ⟨code, .short v, 0⟩
/-- Models `CodePair::new_f64`, src/code_pair.rs:40-42. -/
def newF64 (code : Int) (v : F64) : CodePair := ⟨code, .double v, 0⟩
/-- Models `CodePair::new_i64`, src/code_pair.rs:43-45. -/
def newI64 (code : Int) (v : I64) : CodePair := ⟨code, .long v, 0⟩
/-- Models `CodePair::new_i32`, src/code_pair.rs:46-48. -/
def newI32 (code : Int) (v : I32) : CodePair := ⟨code, .integer v, 0⟩
/-- Models `CodePair::new_bool`, src/code_pair.rs:49-51. -/
def newBool (code : Int) (v : Bool) : CodePair := ⟨code, .boolean (if v then 1 else 0), 0⟩

/-- Models `CodePair::assert_bool`, src/code_pair.rs:52-57. -/
def assertBool (p : CodePair) : Except DxfErr Bool :=
  match p.value with
  | .boolean s => .ok (s ≠ 0)
  | _ => .error (.wrongValueType p.offset)
/-- Models `CodePair::assert_i64`, src/code_pair.rs:58-63. -/
def assertI64 (p : CodePair) : Except DxfErr I64 :=
  match p.value with
  | .long s => .ok s
  | _ => .error (.wrongValueType p.offset)
/-- Models `CodePair::assert_i32`, src/code_pair.rs:64-69. -/
def assertI32 (p : CodePair) : Except DxfErr I32 :=
  match p.value with
  | .integer s => .ok s
  | _ => .error (.wrongValueType p.offset)
/-- Models `CodePair::assert_f64`, src/code_pair.rs:70-75. -/
def assertF64 (p : CodePair) : Except DxfErr F64 :=
  match p.value with
  | .double s => .ok s
  | _ => .error (.wrongValueType p.offset)
/-- Models `CodePair::assert_string`, src/code_pair.rs:76-81. -/
def assertString (p : CodePair) : Except DxfErr Str :=
  match p.value with
  | .str s => .ok s
  | _ => .error (.wrongValueType p.offset)
/-- Models `CodePair::assert_binary`, src/code_pair.rs:82-87. -/
def assertBinary (p : CodePair) : Except DxfErr (List Byte) :=
  match p.value with
  | .binary s => .ok s
  | _ => .error (.wrongValueType p.offset)
/-- Models `CodePair::assert_i16`, src/code_pair.rs:88-94. -/
def assertI16 (p : CodePair) : Except DxfErr I16 :=
  match p.value with
  | .boolean s => .ok s
  | .short s => .ok s
  | _ => .error (.wrongValueType p.offset)

end CodePair

end Dxf
