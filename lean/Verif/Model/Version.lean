import Verif.Model.Basic

/-! File versions, src/enums.rs:18-126. -/

namespace Dxf

/-- Models `AcadVersion`, src/enums.rs:21-43, in declaration order. -/
inductive Version where
  | v1_0 | v1_2 | v1_40 | v2_05 | v2_10 | v2_21 | v2_22 | v2_5 | v2_6
  | r9 | r10 | r11 | r12 | r13 | r14
  | r2000 | r2004 | r2007 | r2010 | r2013 | r2018
  deriving DecidableEq, Repr

namespace Version

/-- Discriminant; the derived `PartialOrd` (src/enums.rs:19) compares declaration order. -/
def idx : Version → Nat
  | v1_0 => 0 | v1_2 => 1 | v1_40 => 2 | v2_05 => 3 | v2_10 => 4 | v2_21 => 5 | v2_22 => 6
  | v2_5 => 7 | v2_6 => 8 | r9 => 9 | r10 => 10 | r11 => 11 | r12 => 12 | r13 => 13
  | r14 => 14 | r2000 => 15 | r2004 => 16 | r2007 => 17 | r2010 => 18 | r2013 => 19
  | r2018 => 20

/-- All versions, oldest first. -/
def all : List Version :=
  [v1_0, v1_2, v1_40, v2_05, v2_10, v2_21, v2_22, v2_5, v2_6, r9, r10, r11, r12, r13, r14,
   r2000, r2004, r2007, r2010, r2013, r2018]

/-- `a <= b` of the derived `PartialOrd`. -/
def le (a b : Version) : Bool := a.idx ≤ b.idx

instance : LE Version := ⟨fun a b => a.idx ≤ b.idx⟩
instance (a b : Version) : Decidable (a ≤ b) := inferInstanceAs (Decidable (a.idx ≤ b.idx))

/-- Models `Display for AcadVersion`, src/enums.rs:99-126. -/
def display : Version → Str
  | v1_0 => str!"MC0.0"
  | v1_2 => str!"AC1.2"
  | v1_40 => str!"AC1.40"
  | v2_05 => str!"AC1.50"
  | v2_10 => str!"AC2.10"
  | v2_21 => str!"AC2.21"
  | v2_22 => str!"AC2.22"
  | v2_5 => str!"AC1002"
  | v2_6 => str!"AC1003"
  | r9 => str!"AC1004"
  | r10 => str!"AC1006"
  | r11 => str!"AC1009"
  | r12 => str!"AC1009"
  | r13 => str!"AC1012"
  | r14 => str!"AC1014"
  | r2000 => str!"AC1015"
  | r2004 => str!"AC1018"
  | r2007 => str!"AC1021"
  | r2010 => str!"AC1024"
  | r2013 => str!"AC1027"
  | r2018 => str!"AC1032"

/-- The match arms of `AcadVersion::from`, src/enums.rs:47-87, in order. -/
def arms : List (Str × Version) := [
  (str!"MC0.0", v1_0), (str!"AC1.2", v1_2), (str!"AC1.40", v1_40), (str!"AC1.50", v2_05),
  (str!"AC2.10", v2_10), (str!"AC2.21", v2_21), (str!"AC2.22", v2_22), (str!"AC1001", v2_22),
  (str!"AC1002", v2_5), (str!"AC1003", v2_6), (str!"AC1004", r9), (str!"AC1006", r10),
  (str!"AC1009", r12), (str!"AC1011", r13), (str!"AC1012", r13), (str!"AC1014", r14),
  (str!"14", r14), (str!"14.01", r14), (str!"AC1015", r2000), (str!"15.0", r2000),
  (str!"15.05", r2000), (str!"15.06", r2000), (str!"AC1018", r2004), (str!"16.0", r2004),
  (str!"16.1", r2004), (str!"16.2", r2004), (str!"AC1021", r2007), (str!"17.0", r2007),
  (str!"17.1", r2007), (str!"17.2", r2007), (str!"AC1024", r2010), (str!"18.0", r2010),
  (str!"18.1", r2010), (str!"18.2", r2010), (str!"AC1027", r2013), (str!"19.0", r2013),
  (str!"19.1", r2013), (str!"19.2", r2013), (str!"19.3", r2013), (str!"AC1032", r2018)]

/-- Models `AcadVersion::from`, src/enums.rs:46-90. -/
def from? (s : Str) : Except DxfErr Version :=
  match arms.find? fun a => a.1 = s with
  | some a => .ok a.2
  | none => .error (.unexpectedEnumValue 0)

/-- Models `AcadVersion::from_safe`, src/enums.rs:91-96. -/
def fromSafe (s : Str) : Version :=
  match from? s with
  | .ok v => v
  | .error _ => r12

end Version

/-- Models the version tests generated around a field with `MinVersion`/`MaxVersion`
(build/header_generator.rs:295-306, build/entity_generator.rs:809-830,
build/table_generator.rs and build/object_generator.rs alike): `version >= min` and
`version <= max`. -/
def versionGate (min max : Option Version) (v : Version) : Bool :=
  (match min with | some m => decide (m ≤ v) | none => true) &&
  (match max with | some m => decide (v ≤ m) | none => true)

end Dxf
