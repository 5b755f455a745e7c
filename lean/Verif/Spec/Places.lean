import Verif.Model.Bytes

/-! The place an error names (C65). -/

namespace Dxf

/-- The place an error names: a line of a text file, a byte of a binary file. -/
def DxfErr.place : DxfErr → Option Nat
  | .parseFloatError o | .parseIntError o | .parseError o | .unexpectedCode _ o | .unexpectedByte _ o
  | .unexpectedEnumValue o | .expectedTableType o | .wrongValueType o => some o
  | .unexpectedCodePair p => some p.offset
  | _ => none

/-- The error complains about this pair: it names the place of the pair, and its code or the pair
itself if the error holds a code or a pair. -/
def DxfErr.About (p : CodePair) : DxfErr → Prop
  | .unexpectedCode c o => c = p.code ∧ o = p.offset
  | .unexpectedCodePair q => q = p
  | .parseError o | .expectedTableType o | .wrongValueType o => o = p.offset
  | _ => False

/-- The error is justified by what was read: it is one of the errors the file holds, it complains
about one of the pairs, or it names no place. -/
def Blamed (s : Stream) (e : DxfErr) : Prop :=
  some (.error e) ∈ s ∨ (∃ p, some (.ok p) ∈ s ∧ e.About p) ∨ e.place = none

/-- The lines of a text file: what is between the line feeds. -/
def linesOf : List Byte → List (List Byte)
  | [] => []
  | b :: bs =>
    if b = 0x0A#8 then [] :: linesOf bs
    else
      match linesOf bs with
      | [] => [[b]]
      | l :: ls => (b :: l) :: ls

/-- The line with number `n`, counted from 1, is `l`; behind the end there are empty lines. -/
def Line (file : List Byte) (n : Nat) (l : List Byte) : Prop :=
  1 ≤ n ∧ ((linesOf file)[n - 1]? = some l ∨ (linesOf file).length < n ∧ l = [])

/-- Line `n` is the number `c`. -/
def CodeLine (file : List Byte) (n : Nat) (c : Int) : Prop :=
  ∃ enc l s k, Line file n l ∧ (readLine true enc l).1 = .ok s ∧ parseI32 (trim s) n = .ok k ∧
    c = k.toInt

/-- Line `n`, read as a value of the given type, gives `v`. -/
def ValueLine (file : List Byte) (n : Nat) (ty : ExpectedType) (v : Except DxfErr CodePairValue) :
    Prop :=
  ∃ enc l s, Line file n l ∧ (readLine false enc l).1 = .ok s ∧ TextIter.parseValue enc ty s n = v

/-- The pair is written in the lines `p.offset` and `p.offset + 1`. -/
def PairLines (file : List Byte) (p : CodePair) : Prop :=
  CodeLine file p.offset p.code ∧ ∃ ty, ExpectedType.new p.code = some ty ∧
    ValueLine file (p.offset + 1) ty (.ok p.value)

/-- The error `e` says what is wrong with line `n` of a text file, or with a pair that begins
there. -/
inductive Points (file : List Byte) : DxfErr → Nat → Prop
  /-- A pair that can be read but is not expected begins in line `n`. -/
  | pair {e : DxfErr} (p : CodePair) : PairLines file p → e.About p → Points file e p.offset
  /-- Line `n` should hold a code and is not a number. -/
  | code {n : Nat} {enc : Enc} {l : List Byte} {s : Str} {e : DxfErr} : Line file n l →
      (readLine true enc l).1 = .ok s → trim s ≠ [] → parseI32 (trim s) n = .error e →
      Points file e n
  /-- Line `n` should hold a value, of the type that belongs to the code in the line before, and does
  not. -/
  | value {n : Nat} {c : Int} {ty : ExpectedType} {e : DxfErr} : CodeLine file n c →
      ExpectedType.new c = some ty → ValueLine file (n + 1) ty (.error e) → Points file e (n + 1)
  /-- The code in the line before `n + 1` does not exist. -/
  | unknown {n : Nat} {c : Int} : CodeLine file n c → ExpectedType.new c = none →
      Points file (.unexpectedEnumValue (n + 1)) (n + 1)

end Dxf
