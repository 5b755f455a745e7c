import Verif.Model.Num

/-! Universally unique identifiers, src/helper_functions.rs:132-171. -/

namespace Dxf

/-- `uuid::Uuid`. -/
abbrev Uuid := BitVec 128

/-- The 32 lower-case hexadecimal digits. -/
def Uuid.hex (u : Uuid) : Str := padLeft 32 '0' ((fmtHex u.toNat).map asciiLower)

/-- Puts hyphens between the groups of digits. -/
def Uuid.hyphen (h : Str) : Str :=
  h.take 8 ++ '-' :: (h.drop 8).take 4 ++ '-' :: (h.drop 12).take 4 ++
    '-' :: (h.drop 16).take 4 ++ '-' :: h.drop 20

/-- Models `uuid_string`, src/helper_functions.rs:169-171: the hyphenated form. -/
def Uuid.display (u : Uuid) : Str := Uuid.hyphen u.hex

/-- The digits of the hyphenated form. -/
def Uuid.unhyphen (s : Str) : Option Str :=
  if s.length = 36 ∧ s[8]? = some '-' ∧ s[13]? = some '-' ∧ s[18]? = some '-' ∧ s[23]? = some '-'
  then some (s.take 8 ++ (s.drop 9).take 4 ++ (s.drop 14).take 4 ++ (s.drop 19).take 4 ++
    s.drop 24)
  else none

/-- Models `Uuid::parse_str` of the uuid crate: 32 digits, or the hyphenated form on its own, in
braces or after `urn:uuid:`.  The crate looks at bytes; text with characters outside ASCII is
rejected either way. -/
def Uuid.parse? (s : Str) : Option Uuid :=
  let digits : Option Str :=
    if s.length = 32 then some s
    else if s.length = 36 then Uuid.unhyphen s
    else if s.length = 38 ∧ s.head? = some '{' ∧ s.getLast? = some '}' then
      Uuid.unhyphen (s.tail.dropLast)
    else if s.length = 45 ∧ s.take 9 = str!"urn:uuid:" then Uuid.unhyphen (s.drop 9)
    else none
  match digits with
  | some d => (digitsVal? 16 hexVal? 0 d).map (BitVec.ofNat 128)
  | none => none

/-- Models `as_uuid`, src/helper_functions.rs:132-149.  The code takes `s.len() - 2` characters
where `s.len()` counts bytes; the difference only matters for text outside ASCII, which is
rejected anyway. -/
def Uuid.ofText (s : Str) : Uuid :=
  let t := if s.head? = some '{' ∧ s.getLast? = some '}' then s.tail.dropLast else s
  match Uuid.parse? t with
  | some u => u
  | none => 0#128

end Dxf
