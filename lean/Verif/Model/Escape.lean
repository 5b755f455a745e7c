import Verif.Model.Basic

/-! String escaping, src/code_pair_value.rs. -/

namespace Dxf

/-- Models the match of `un_escape_string`, src/code_pair_value.rs:36-71: the `u8` that
the character after `^` stands for.  The last arm is `c as u8` (truncation). -/
def unescapeByte (c : Char) : Nat :=
  match c with
  | '@' => 0x00 | 'A' => 0x01 | 'B' => 0x02 | 'C' => 0x03
  | 'D' => 0x04 | 'E' => 0x05 | 'F' => 0x06 | 'G' => 0x07
  | 'H' => 0x08 | 'I' => 0x09 | 'J' => 0x0A | 'K' => 0x0B
  | 'L' => 0x0C | 'M' => 0x0D | 'N' => 0x0E | 'O' => 0x0F
  | 'P' => 0x10 | 'Q' => 0x11 | 'R' => 0x12 | 'S' => 0x13
  | 'T' => 0x14 | 'U' => 0x15 | 'V' => 0x16 | 'W' => 0x17
  | 'X' => 0x18 | 'Y' => 0x19 | 'Z' => 0x1A | '[' => 0x1B
  | '\\' => 0x1C | ']' => 0x1D | '^' => 0x1E | '_' => 0x1F
  | ' ' => 0x5E
  | c => c.toNat % 256

/-- Models the loop of `un_escape_string`, src/code_pair_value.rs:29-79; the Boolean is
`do_escape`.  A trailing lone `^` produces nothing. -/
def unescapeLoop : Bool → Str → Str
  | _, [] => []
  | false, c :: cs => if c = '^' then unescapeLoop true cs else c :: unescapeLoop false cs
  | true, c :: cs => Char.ofNat (unescapeByte c) :: unescapeLoop false cs

/-- Models `CodePairValue::un_escape_string`, src/code_pair_value.rs:20-85.  The prefix
before the first `^` is copied unchanged by the loop as well, so the early split on
`find` needs no separate treatment. -/
def unescapeString (s : Str) : Str := unescapeLoop false s

/-- Models `needs_escaping`, src/code_pair_value.rs:129-132. -/
def needsEscaping (c : Char) : Bool := c.toNat ≤ 0x1F || c.toNat = 0x5E

/-- Models the match of `escape_control_characters`, src/code_pair_value.rs:138-173; the
`panic!` arm is `none`. -/
def escapeLetter (n : Nat) : Option Char :=
  match n with
  | 0x00 => some '@' | 0x01 => some 'A' | 0x02 => some 'B' | 0x03 => some 'C'
  | 0x04 => some 'D' | 0x05 => some 'E' | 0x06 => some 'F' | 0x07 => some 'G'
  | 0x08 => some 'H' | 0x09 => some 'I' | 0x0A => some 'J' | 0x0B => some 'K'
  | 0x0C => some 'L' | 0x0D => some 'M' | 0x0E => some 'N' | 0x0F => some 'O'
  | 0x10 => some 'P' | 0x11 => some 'Q' | 0x12 => some 'R' | 0x13 => some 'S'
  | 0x14 => some 'T' | 0x15 => some 'U' | 0x16 => some 'V' | 0x17 => some 'W'
  | 0x18 => some 'X' | 0x19 => some 'Y' | 0x1A => some 'Z' | 0x1B => some '['
  | 0x1C => some '\\' | 0x1D => some ']' | 0x1E => some '^' | 0x1F => some '_'
  | 0x5E => some ' '
  | _ => none

/-- Models `escape_control_characters`, src/code_pair_value.rs:128-180; `none` is the
`panic!` (proved unreachable). -/
def escapeControl? : Str → Option Str
  | [] => some []
  | c :: cs =>
    if needsEscaping c then do
      let l ← escapeLetter (c.toNat % 256)
      let r ← escapeControl? cs
      return '^' :: l :: r
    else do
      let r ← escapeControl? cs
      return c :: r

/-- Total version of `escape_control_characters` used by the writers; it agrees with
`escapeControl?` on every string (`escapeControl?_eq` in `Lemmas/Escape.lean`), i.e. the
`panic!` arm of src/code_pair_value.rs:172 is dead. -/
def escapeControl : Str → Str
  | [] => []
  | c :: cs =>
    if needsEscaping c then
      match escapeLetter (c.toNat % 256) with
      | some l => '^' :: l :: escapeControl cs
      | none => escapeControl cs
    else c :: escapeControl cs

/-- Upper-case digit of Rust's `{:X}`. -/
def hexDigit (n : Nat) : Char := if n < 10 then Char.ofNat (48 + n) else Char.ofNat (55 + n)

/-- Positional digits of `n` in base `b`, least significant first (at least one digit);
`fuel` bounds the number of digits. -/
def digitsRev : Nat → Nat → Nat → List Nat
  | 0, _, _ => []
  | fuel + 1, b, n => n % b :: (if n / b = 0 then [] else digitsRev fuel b (n / b))

/-- Positional digits of `n` in base `b`, most significant first, without leading zeros
(`[0]` for zero): what Rust's integer formatting prints. -/
def digits (b n : Nat) : List Nat := (digitsRev (n.log2 + 1) b n).reverse

/-- Left-pads to a width, as Rust's `{: >w}` and `{:0w}` do. -/
def padLeft (w : Nat) (c : Char) (s : Str) : Str := List.replicate (w - s.length) c ++ s

/-- Rust's `{:X}` for an unsigned number. -/
def fmtHex (n : Nat) : Str := (digits 16 n).map hexDigit

/-- Models `escape_unicode_to_ascii`, src/code_pair_value.rs:182-195. -/
def escapeUnicode : Str → Str
  | [] => []
  | c :: cs =>
    if c.toNat ≥ 128 then str!"\\U+" ++ padLeft 4 '0' (fmtHex c.toNat) ++ escapeUnicode cs
    else c :: escapeUnicode cs

/-- Digit value accepted by Rust's `from_str_radix(_, 16)` (`char::to_digit(16)`). -/
def hexVal? (c : Char) : Option Nat :=
  let n := c.toNat
  if 48 ≤ n ∧ n ≤ 57 then some (n - 48)
  else if 65 ≤ n ∧ n ≤ 70 then some (n - 55)
  else if 97 ≤ n ∧ n ≤ 102 then some (n - 87)
  else none

/-- Positional value of a digit string, `none` on a non-digit. -/
def digitsVal? (b : Nat) (dig : Char → Option Nat) : Nat → Str → Option Nat
  | acc, [] => some acc
  | acc, c :: cs =>
    match dig c with
    | some d => digitsVal? b dig (acc * b + d) cs
    | none => none

/-- Optional sign of a number: negative?, and the rest. -/
def stripSign (s : Str) : Bool × Str :=
  match s with
  | [] => (false, [])
  | c :: r => if c = '-' then (true, r) else if c = '+' then (false, r) else (false, c :: r)

/-- Models `u32::from_str_radix(s, 16)` of the Rust standard library: optional leading
`+` (a `-` is an invalid digit), at least one digit, range check. -/
def parseU32Hex (s : Str) : Option Nat :=
  if (stripSign s).1 = true ∨ (stripSign s).2 = [] then none
  else
    match digitsVal? 16 hexVal? 0 (stripSign s).2 with
    | some n => if n < 2 ^ 32 then some n else none
    | none => none

/-- Models `std::char::from_u32(code).unwrap_or('?')`. -/
def charFromU32 (n : Nat) : Char := if n.isValidChar then Char.ofNat n else '?'

/-- Models the treatment of a complete 7-character sequence,
src/code_pair_value.rs:217-225. -/
def decodeSeq (seq : Str) : Str :=
  match seq with
  | '\\' :: 'U' :: '+' :: codeStr =>
    match parseU32Hex codeStr with
    | some n => [charFromU32 n]
    | none => ['?']
  | _ => seq

/-- Models the loop of `un_escape_ascii_to_unicode`, src/code_pair_value.rs:203-230.
`none`: outside a sequence; `some seq`: inside, with the characters collected so far
(`i - sequence_start + 1` of them).  An unfinished sequence at the end is dropped. -/
def unescapeUnicodeLoop : Option Str → Str → Str
  | _, [] => []
  | none, c :: cs =>
    if c = '\\' then unescapeUnicodeLoop (some ['\\']) cs
    else c :: unescapeUnicodeLoop none cs
  | some seq, c :: cs =>
    if seq.length = 6 then decodeSeq (seq ++ [c]) ++ unescapeUnicodeLoop none cs
    else unescapeUnicodeLoop (some (seq ++ [c])) cs

/-- Models `un_escape_ascii_to_unicode`, src/code_pair_value.rs:197-233. -/
def unescapeUnicode (s : Str) : Str := unescapeUnicodeLoop none s

end Dxf
