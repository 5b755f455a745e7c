import Verif.Model.Record
import Verif.Model.Rd

/-! The header section: src/header.rs and what build/header_generator.rs generates. -/

namespace Dxf

/-- A variable of `set_header_value` (build/header_generator.rs:183-241): its name with the
dollar sign, its match arms, and whether a code without arm is reported by `verify_code`
(variables with a single code) or as an unexpected pair (points and variables with several
codes). -/
structure HVar (ds : List Decl) where
  name : Str
  single : Bool
  arms : List (Arm ds)

/-- A statement of `add_code_pairs_internal` (build/header_generator.rs:259-341): the name
pair followed by the value. -/
structure HCmd (ds : List Decl) where
  name : Str
  g : GCmd ds

variable {ds : List Decl}

/-- The arm of `match variable`. -/
def findVar (vars : List (HVar ds)) (name : Str) : Option (HVar ds) :=
  vars.find? fun h => decide (h.name = name)

/-- Models `Header::set_header_value` (generated).  `verify_code`,
src/helper_functions.rs:21-27; `Point::set`, src/point.rs:60-73. -/
def setHeaderValue (vars : List (HVar ds)) (name : Str) (p : CodePair) (r : Rec ds) :
    Except DxfErr (Rec ds) :=
  match findVar vars name with
  | none => .ok r
  | some h =>
    match findArm h.arms p.code with
    | some a => a.act.apply r p
    | none => .error (if h.single then .unexpectedCode p.code p.offset else .unexpectedCodePair p)

/-- The inner loop of `Header::read`, src/header.rs:35-56: the pairs of one variable.  The call
of `read_as_utf8` is left out: it changes how the bytes after it are decoded, not which pairs
are read from a stream of pairs (see Model/TextCodec.lean). -/
def headerValues (vars : List (HVar ds)) (name : Str) : Nat → Rec ds → Rd (Rec ds)
  | 0, _ => Rd.fail .outOfFuel
  | fuel + 1, r => do
    match ← Rd.next? with
    | none => return r
    | some pair =>
      if pair.code = 0 ∨ pair.code = 9 then do
        Rd.putBack pair
        return r
      else do
        let r' ← Rd.lift (setHeaderValue vars name pair r)
        headerValues vars name fuel r'

/-- The outer loop of `Header::read`, src/header.rs:21-64. -/
def headerLoop (vars : List (HVar ds)) : Nat → Rec ds → Rd (Rec ds)
  | 0, _ => Rd.fail .outOfFuel
  | fuel + 1, r => do
    match ← Rd.next? with
    | none => return r
    | some pair =>
      if pair.code = 0 then do
        Rd.putBack pair
        return r
      else if pair.code = 9 then do
        let name ← Rd.lift pair.assertString
        let r' ← Rd.withFuel fun n => headerValues vars name n r
        headerLoop vars fuel r'
      else Rd.fail (.unexpectedCodePair pair)

/-- The pairs one variable is written as. -/
def HCmd.emit (h : HCmd ds) (v : Version) (r : Rec ds) : List CodePair :=
  if h.g.holds v r then .newStr 9 h.name :: h.g.cmd.emit r else []

/-- The pairs of all variables. -/
def headerPairs (cmds : List (HCmd ds)) (v : Version) (r : Rec ds) : List CodePair :=
  cmds.flatMap fun h => h.emit v r

end Dxf
