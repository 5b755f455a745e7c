import Verif.Model.Entry

/-! Classes: src/class.rs. -/

namespace Dxf

/-- The struct `Class`, src/class.rs:10-27; `usize` has 64 bits. -/
structure Class where
  recordName : Str
  className : Str
  applicationName : Str
  versionNumber : I32
  proxyCapabilityFlags : I32
  instanceCount : BitVec 64
  wasClassLoadedWithFile : Bool
  isEntity : Bool
deriving DecidableEq

namespace Class

/-- Models `Class::default`, src/class.rs:101-114. -/
def dflt : Class := ⟨[], [], [], 0#32, 0#32, 0#64, true, false⟩

/-- Models `Class::add_code_pairs`, src/class.rs:139-161. -/
def pairs (v : Version) (c : Class) : List CodePair :=
  (if .r14 ≤ v then
    [.newStr 0 str!"CLASS", .newStr 1 c.recordName, .newStr 2 c.className,
      .newStr 3 c.applicationName, .newI32 90 c.proxyCapabilityFlags] ++
    (if .r2004 ≤ v then [.newI32 91 (c.instanceCount.truncate 32)] else [])
  else
    [.newStr 0 c.recordName, .newStr 1 c.className, .newStr 2 c.applicationName,
      .newI32 90 c.versionNumber]) ++
  [.newI16 280 (bif !c.wasClassLoadedWithFile then 1#16 else 0#16),
    .newI16 281 (bif c.isEntity then 1#16 else 0#16)]

/-- Models the match in `Class::read_class`, src/class.rs:177-209. -/
def apply (v : Version) (p : CodePair) (c : Class) : Except DxfErr Class :=
  if p.code = 1 then p.assertString.map fun s =>
    if v ≤ .r13 then { c with className := s } else { c with recordName := s }
  else if p.code = 2 then p.assertString.map fun s =>
    if v ≤ .r13 then { c with applicationName := s } else { c with className := s }
  else if p.code = 3 then
    if .r14 ≤ v then p.assertString.map fun s => { c with applicationName := s } else .ok c
  else if p.code = 90 then p.assertI32.map fun n =>
    if v ≤ .r13 then { c with versionNumber := n } else { c with proxyCapabilityFlags := n }
  else if p.code = 91 then p.assertI32.map fun n => { c with instanceCount := n.signExtend 64 }
  else if p.code = 280 then p.assertI16.map fun n =>
    { c with wasClassLoadedWithFile := !decide (n = 1#16) }
  else if p.code = 281 then p.assertI16.map fun n => { c with isEntity := decide (n = 1#16) }
  else .ok c

/-- Models `Class::read_class`, src/class.rs:166-219; the class is returned instead of being
added to the drawing, whose version is `v`. -/
def read (v : Version) (typ : Str) : Rd Class :=
  Rd.withFuel fun fuel => itemLoop false (fun p c => Rd.lift (apply v p c)) fuel
    (if v ≤ .r13 then { dflt with recordName := typ } else dflt)

/-- Models `Class::read_classes`, src/class.rs:118-138. -/
def readAll (v : Version) : Nat → Rd (List Class)
  | 0 => Rd.fail .outOfFuel
  | fuel + 1 => do
    let pair ← Rd.next
    if pair.code = 0 then do
      let s ← Rd.lift pair.assertString
      if s = str!"ENDSEC" then do
        Rd.putBack pair
        return []
      else do
        let c ← read v s
        let cs ← readAll v fuel
        return c :: cs
    else readAll v fuel

end Class

end Dxf
