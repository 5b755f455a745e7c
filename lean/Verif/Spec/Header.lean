import Verif.Data.Header
import Verif.Spec.Record

/-! Specification vocabulary for the header. -/

namespace Dxf

/-- The statements whose variable has an arm in the reader. -/
def knownCmds {ds : List Decl} (vars : List (HVar ds)) (cmds : List (HCmd ds)) : List (GCmd ds) :=
  (cmds.filter fun h => (findVar vars h.name).isSome).map fun h => h.g

/-- A header value. -/
abbrev Header : Type := Rec Header.decls

namespace Header

/-- The `version` field. -/
def version (r : Header) : Version := r 0

/-- The pairs between `2/HEADER` and `0/ENDSEC`: `add_code_pairs_internal` (generated). -/
def body (r : Header) : List CodePair := headerPairs Header.cmds r.version r

/-- Models `Header::add_code_pairs`, src/header.rs:65-70. -/
def pairs (r : Header) : List CodePair :=
  [.newStr 0 str!"SECTION", .newStr 2 str!"HEADER"] ++ body r ++ [.newStr 0 str!"ENDSEC"]

/-- Models `Header::read`, src/header.rs:21-64; `h0` is the value of `Header::default()` at the
time of the call. -/
def read (h0 : Header) : Rd Header := Rd.withFuel fun n => headerLoop Header.vars n h0

/-- A possible value of `Header::default()`: the current time and random UUIDs in six fields, the
defaults of the specification elsewhere. -/
def Fresh (h0 : Header) : Prop := ∀ i, i ∉ nondet → h0 i = Rec.dflt Header.decls i

/-- The statements of the variables that the reader knows. -/
def known : List (GCmd Header.decls) := knownCmds Header.vars Header.cmds

/-- The four dates (`$TDCREATE`, `$TDUCREATE`, `$TDUPDATE`, `$TDUUPDATE`): what is written for
them is not beyond the range that the reader accepts without panic. -/
def DatesReadable (r : Header) : Prop :=
  (∃ d, Date.ofDouble (Date.asDouble (r 122)) = .ok d) ∧
  (∃ d, Date.ofDouble (Date.asDouble (r 123)) = .ok d) ∧
  (∃ d, Date.ofDouble (Date.asDouble (r 124)) = .ok d) ∧
  (∃ d, Date.ofDouble (Date.asDouble (r 125)) = .ok d)

end Header

end Dxf
