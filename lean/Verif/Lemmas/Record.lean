import Verif.Spec.Record
import Verif.Lemmas.Hex
import Verif.Lemmas.Uuid
import Verif.Lemmas.FloatOps
import Mathlib.Data.List.Nodup

/-! Writing the fields of a record and reading them back. -/

namespace Dxf

/-! ### Conversions -/

/-- The kind of value a write conversion produces. -/
inductive Wire where
  | str | handle | i16 | i32 | i64 | f64 | bool | bytes
  deriving DecidableEq

def WConv.wire : {t : Ty} → WConv t → Wire
  | _, .bool => .bool
  | _, .asI16 => .i16
  | _, .notI16 => .i16
  | _, .i16 => .i16
  | _, .i32 => .i32
  | _, .i32AsI16 => .i16
  | _, .i64 => .i64
  | _, .f64 => .f64
  | _, .str => .str
  | _, .bytes => .bytes
  | _, .handle => .handle
  | _, .chr => .i16
  | _, .enumI16 _ => .i16
  | _, .enumI32 _ => .i32
  | _, .enumF64 _ => .f64
  | _, .enumBool _ => .bool
  | _, .i32AsF64 => .f64
  | _, .f64AsI16 => .i16
  | _, .f64AsI32 => .i32
  | _, .version => .str
  | _, .date => .f64
  | _, .dur => .f64
  | _, .uuid => .str

/-- The conversion never fails on such a value. -/
def RConv.accepts : {t : Ty} → RConv t → Wire → Bool
  | _, .bool, w => w = .bool
  | _, .asBool, w => w = .i16
  | _, .notBool, w => w = .i16
  | _, .i16, w => w = .i16
  | _, .i32, w => w = .i32
  | _, .i32OfI16, w => w = .i16
  | _, .i64, w => w = .i64
  | _, .f64, w => w = .f64
  | _, .str, w => w = .str || w = .handle
  | _, .bytes, w => w = .bytes
  | _, .handle, w => w = .handle
  | _, .chr, w => w = .i16
  | _, .enumI16 _ _, w => w = .i16
  | _, .enumI32 _ _, w => w = .i32
  | _, .enumF64 _ _, w => w = .f64
  | _, .enumBool _ _, w => w = .bool
  | _, .i16OfI32, w => w = .i32
  | _, .i32OfF64, w => w = .f64
  | _, .f64OfI16, w => w = .i16
  | _, .f64OfI32, w => w = .i32
  | _, .version, w => w = .str || w = .handle
  | _, .date, _ => false
  | _, .dur, w => w = .f64
  | _, .uuid, w => w = .str || w = .handle
  | _, .ignoreStr, w => w = .str || w = .handle

theorem asHandle_newStr (code : Int) (h : Handle) :
    (CodePair.newStr code h.asString).asHandle = .ok h := by
  have := asHandle_text code 0 h [] [] (by simp) (by simp)
  simpa [CodePair.newStr] using this

/-- The value has the given kind. -/
def Wire.Is (w : Wire) (v : CodePairValue) : Prop :=
  match w, v with
  | .str, .str _ => True
  | .handle, .str s => ∃ h : Handle, s = h.asString
  | .i16, .short _ => True
  | .i32, .integer _ => True
  | .i64, .long _ => True
  | .f64, .double _ => True
  | .bool, .boolean _ => True
  | .bytes, .binary _ => True
  | _, _ => False

theorem WConv.write_is {t : Ty} (c : WConv t) (code : Int) (v : t.den) :
    c.wire.Is (c.write code v).value := by
  cases c <;> simp [WConv.wire, WConv.write, Wire.Is, CodePair.newBool, CodePair.newI16,
    CodePair.newI32, CodePair.newI64, CodePair.newF64, CodePair.newStr, CodePair.newBinary]
  exact ⟨_, rfl⟩

theorem WConv.write_code {t : Ty} (c : WConv t) (code : Int) (v : t.den) :
    (c.write code v).code = code := by
  cases c <;> rfl


theorem RConv.read_ok {t : Ty} (k : RConv t) (w : Wire) (p : CodePair) (ha : k.accepts w = true)
    (hw : w.Is p.value) : ∃ x, k.read p = .ok x := by
  obtain ⟨code, val, off⟩ := p
  cases k <;> cases w <;> simp only [RConv.accepts, decide_eq_true_eq, reduceCtorEq,
      Bool.or_eq_true, or_self, or_false, decide_true, decide_false, Bool.false_or, Bool.true_or,
      Bool.or_false, Bool.false_eq_true] at ha <;>
    cases val <;> simp only [Wire.Is] at hw
  case handle.handle.str s =>
    obtain ⟨h, rfl⟩ := hw
    have := asHandle_text code off h [] [] (by simp) (by simp)
    simp only [List.nil_append, List.append_nil] at this
    exact ⟨h, this⟩
  all_goals exact ⟨_, rfl⟩

/-- The read conversion undoes the write conversion on representable values. -/
def RConv.matches : {t : Ty} → RConv t → WConv t → Bool
  | _, .bool, .bool => true
  | _, .asBool, .asI16 => true
  | _, .notBool, .notI16 => true
  | _, .i16, .i16 => true
  | _, .i32, .i32 => true
  | _, .i32OfI16, .i32AsI16 => true
  | _, .i64, .i64 => true
  | _, .f64, .f64 => true
  | _, .str, .str => true
  | _, .bytes, .bytes => true
  | _, .handle, .handle => true
  | _, .chr, .chr => true
  | _, .enumI16 vals _, .enumI16 _ =>
    decide (vals.Nodup) && vals.all fun v => decide (-32768 ≤ v) && decide (v < 32768)
  | _, .enumI32 vals _, .enumI32 _ =>
    decide (vals.Nodup) && vals.all fun v => decide (-32768 ≤ v) && decide (v < 32768)
  | _, .enumF64 vals _, .enumF64 _ =>
    decide (vals.Nodup) && vals.all fun v => decide (-32768 ≤ v) && decide (v < 32768)
  | _, .enumBool vals _, .enumBool _ => decide (vals.Nodup)
  | _, .i32OfF64, .i32AsF64 => true
  | _, .f64OfI16, .f64AsI16 => true
  | _, .f64OfI32, .f64AsI32 => true
  | _, .version, .version => true
  | _, .date, .date => true
  | _, .dur, .dur => true
  | _, .uuid, .uuid => true
  | _, _, _ => false

theorem enumOfInt_get (vals : List Int) (d : Fin vals.length) (h : vals.Nodup)
    (i : Fin vals.length) : enumOfInt vals d (vals.get i) = i := by
  unfold enumOfInt
  cases hf : vals.findFinIdx? (· = vals.get i) with
  | none =>
    rw [List.findFinIdx?_eq_none_iff] at hf
    exact absurd (by simp) (hf _ (List.get_mem vals i))
  | some j =>
    rw [List.findFinIdx?_eq_some_iff] at hf
    have := hf.1
    simp only [decide_eq_true_eq] at this
    exact (List.nodup_iff_injective_get.mp h) this

theorem RConv.read_write {t : Ty} (k : RConv t) (c : WConv t) (code : Int) (v : t.den)
    (hm : k.matches c = true) (hf : c.Fits v) : k.read (c.write code v) = .ok v := by
  cases k <;> cases c <;> simp only [RConv.matches, Bool.false_eq_true] at hm
  case bool.bool => cases v <;> rfl
  case asBool.asI16 => cases v <;> rfl
  case notBool.notI16 => cases v <;> rfl
  case i32OfI16.i32AsI16 =>
    simp only [WConv.Fits] at hf
    revert v
    change ∀ v : I32, -32768 ≤ v.toInt ∧ v.toInt < 32768 →
      Except.ok ((v.setWidth 16).signExtend 32) = Except.ok v
    intro v hf
    congr 1
    apply BitVec.eq_of_toInt_eq
    rw [BitVec.toInt_signExtend_of_le (by omega), BitVec.toInt_setWidth]
    have : (v : I32).toInt = ((v : I32).toNat : Int).bmod (2 ^ 32) := by
      rw [BitVec.toInt_eq_toNat_bmod]
    have hl := BitVec.isLt (v : I32)
    simp only [Int.bmod_def] at this ⊢
    omega
  case handle.handle => exact asHandle_newStr code v
  case chr.chr =>
    simp only [WConv.Fits] at hf
    change Except.ok (Char.ofNat ((BitVec.ofNat 16 (v : Char).toNat).setWidth 8).toNat) = Except.ok v
    congr 1
    rw [BitVec.toNat_setWidth, BitVec.toNat_ofNat]
    have : (v : Char).toNat % 2 ^ 16 % 2 ^ 8 = (v : Char).toNat := by omega
    rw [this]
    exact Char.ofNat_toNat v
  case enumI16.enumI16 vals d =>
    simp only [Bool.and_eq_true, decide_eq_true_eq, List.all_eq_true] at hm
    change Except.ok (enumOfInt vals d (BitVec.ofInt 16 (vals.get v)).toInt) = Except.ok v
    congr 1
    rw [BitVec.toInt_ofInt]
    have := hm.2 _ (List.get_mem vals v)
    have hb : (vals.get v).bmod (2 ^ 16) = vals.get v := by
      simp only [Int.bmod_def]; omega
    rw [hb]
    exact enumOfInt_get vals d hm.1 v
  case enumI32.enumI32 vals d =>
    simp only [Bool.and_eq_true, decide_eq_true_eq, List.all_eq_true] at hm
    change Except.ok (enumOfInt vals d (BitVec.ofInt 32 (vals.get v)).toInt) = Except.ok v
    congr 1
    rw [BitVec.toInt_ofInt]
    have := hm.2 _ (List.get_mem vals v)
    have hb : (vals.get v).bmod (2 ^ 32) = vals.get v := by
      simp only [Int.bmod_def]; omega
    rw [hb]
    exact enumOfInt_get vals d hm.1 v
  case enumF64.enumF64 vals d =>
    simp only [Bool.and_eq_true, decide_eq_true_eq, List.all_eq_true] at hm
    change Except.ok (match (F64.ofInt (vals.get v)).toI64? with
      | some n => enumOfInt vals d n
      | none => d) = Except.ok v
    congr 1
    have := hm.2 _ (List.get_mem vals v)
    rw [toI64_ofInt _ (by omega)]
    exact enumOfInt_get vals d hm.1 v
  case enumBool.enumBool vals d =>
    simp only [decide_eq_true_eq] at hm
    simp only [WConv.Fits] at hf
    change (CodePair.newBool code (decide (vals.get v ≠ 0))).assertBool.map
      (fun b => enumOfInt vals d (bif b then 1 else 0)) = Except.ok v
    rcases hf with hf | hf
    · have := enumOfInt_get vals d hm v
      rw [hf] at this ⊢
      exact congrArg Except.ok this
    · have := enumOfInt_get vals d hm v
      rw [hf] at this ⊢
      exact congrArg Except.ok this
  case i32OfF64.i32AsF64 =>
    revert v
    change ∀ v : I32, True → Except.ok (BitVec.ofInt 32
      ((F64.ofInt v.toInt).toIntSat (-2 ^ 31) (2 ^ 31 - 1))) = Except.ok v
    intro v _
    have h1 := v.toInt_lt
    have h2 := v.le_toInt
    rw [toIntSat_ofInt _ _ _ (by omega), show max (-2 ^ 31) (min (2 ^ 31 - 1) v.toInt) = v.toInt by
      omega]
    simp
  case f64OfI16.f64AsI16 =>
    obtain ⟨n, hn⟩ := (show ∃ n : I16, v = F64.ofInt n.toInt from hf)
    subst hn
    change Except.ok (F64.ofInt (F64.toI16 (F64.ofInt n.toInt)).toInt) = _
    have h1 := n.toInt_lt
    have h2 := n.le_toInt
    rw [F64.toI16_ofInt _ (by omega), show max (-32768) (min 32767 n.toInt) = n.toInt by omega,
      BitVec.ofInt_toInt]
    rfl
  case f64OfI32.f64AsI32 =>
    obtain ⟨n, hn⟩ := (show ∃ n : I32, v = F64.ofInt n.toInt from hf)
    subst hn
    change Except.ok (F64.ofInt (BitVec.ofInt 32
      ((F64.ofInt n.toInt).toIntSat (-2 ^ 31) (2 ^ 31 - 1))).toInt) = _
    have h1 := n.toInt_lt
    have h2 := n.le_toInt
    rw [toIntSat_ofInt _ _ _ (by omega), show max (-2 ^ 31) (min (2 ^ 31 - 1) n.toInt) = n.toInt by
      omega, BitVec.ofInt_toInt]
    rfl
  case version.version =>
    revert v
    change ∀ v : Version, v ≠ .r11 → Except.ok (Version.fromSafe v.display) = Except.ok v
    intro v hv
    cases v <;> first | exact absurd rfl hv | rfl
  case date.date => exact hf
  case dur.dur =>
    exact congrArg Except.ok (Dur.roundtrip v hf.1 hf.2)
  case uuid.uuid =>
    exact congrArg Except.ok (uuid_ofText_display v)
  all_goals rfl

/-! ### Fields -/

def FRead.accepts : {t : Ty} → FRead t → Wire → Bool
  | _, .set c, w => c.accepts w
  | _, .push c, w => c.accepts w
  | _, .axis _, w => w = .f64
  | _, .pushAxis _, w => w = .f64
  | _, .lwNew, w => w = .f64
  | _, .lwSet _, _ => false

theorem FRead.apply_ok {t : Ty} (k : FRead t) (w : Wire) (p : CodePair) (old : t.den)
    (ha : k.accepts w = true) (hw : w.Is p.value) : ∃ x, k.apply old p = .ok x := by
  cases k with
  | set c => exact c.read_ok w p ha hw
  | push c =>
    obtain ⟨x, hx⟩ := c.read_ok w p ha hw
    exact ⟨_, by rw [FRead.apply, hx]; rfl⟩
  | axis a =>
    obtain ⟨x, hx⟩ := RConv.f64.read_ok w p ha hw
    have hx : p.assertF64 = .ok x := hx
    exact ⟨_, by rw [FRead.apply, hx]; rfl⟩
  | pushAxis a =>
    obtain ⟨x, hx⟩ := RConv.f64.read_ok w p ha hw
    have hx : p.assertF64 = .ok x := hx
    exact ⟨_, by rw [FRead.apply, hx]; rfl⟩
  | lwNew =>
    obtain ⟨x, hx⟩ := RConv.f64.read_ok w p ha hw
    have hx : p.assertF64 = .ok x := hx
    exact ⟨_, by rw [FRead.apply, hx]; rfl⟩
  | lwSet f => simp [FRead.accepts] at ha

variable {ds : List Decl}

/-- The arm of a record reader writes to field `i`. -/
def Act.hits (i : Nat) : Act ds → Bool
  | .on j _ => j == i
  | .custom ts _ => ts.contains i

def hits (arms : List (Arm ds)) (code : Int) (i : Nat) : Bool :=
  match findArm arms code with
  | some a => a.act.hits i
  | none => false

/-- The pair is read without error, whatever was read before. -/
def Accepts (arms : List (Arm ds)) (p : CodePair) : Prop :=
  ∀ r : Rec ds, ∃ r', applyPair arms r p = .ok r'

def Act.accepts (w : Wire) : Act ds → Bool
  | .on _ act => act.accepts w
  | .custom _ _ => false

def codeAccepts (arms : List (Arm ds)) (code : Int) (w : Wire) : Bool :=
  match findArm arms code with
  | some a => a.act.accepts w
  | none => true

theorem accepts_of (arms : List (Arm ds)) (p : CodePair) (w : Wire)
    (h : codeAccepts arms p.code w = true) (hw : w.Is p.value) : Accepts arms p := by
  intro r
  unfold applyPair
  unfold codeAccepts at h
  cases hf : findArm arms p.code with
  | none => exact ⟨r, rfl⟩
  | some a =>
    rw [hf] at h
    simp only at h ⊢
    cases ha : a.act with
    | on i act =>
      rw [ha] at h
      obtain ⟨x, hx⟩ := act.apply_ok w p (r i) h hw
      exact ⟨_, by rw [Act.apply, hx]; rfl⟩
    | custom ts f => rw [ha] at h; simp [Act.accepts] at h

def FWrite.codes : {t : Ty} → FWrite t → List Int
  | _, .one c _ => [c]
  | _, .many c _ => [c]
  | _, .axes cs => cs.map Prod.snd
  | .pts three, .points code => (axesOf three).map code
  | _, .lw withId => [10, 20] ++ (if withId then [91] else []) ++ [40, 41, 42]

def FWrite.wires : {t : Ty} → FWrite t → List (Int × Wire)
  | _, .one c k => [(c, k.wire)]
  | _, .many c k => [(c, k.wire)]
  | _, .axes cs => cs.map fun x => (x.2, .f64)
  | .pts three, .points code => (axesOf three).map fun a => (code a, .f64)
  | _, .lw withId => [(10, .f64), (20, .f64)] ++ (if withId then [(91, .i32)] else []) ++
    [(40, .f64), (41, .f64), (42, .f64)]

theorem FWrite.mem_emit_wire {t : Ty} (w : FWrite t) (v : t.den) (p : CodePair)
    (h : p ∈ w.emit v) : ∃ x ∈ w.wires, x.1 = p.code ∧ x.2.Is p.value := by
  cases w with
  | one c k =>
    simp only [FWrite.emit, List.mem_singleton] at h
    subst h
    exact ⟨_, List.mem_singleton.mpr rfl, (k.write_code c v).symm, k.write_is c v⟩
  | many c k =>
    simp only [FWrite.emit] at h
    obtain ⟨x, _, rfl⟩ := List.mem_map.mp h
    exact ⟨_, List.mem_singleton.mpr rfl, (k.write_code c x).symm, k.write_is c x⟩
  | axes cs =>
    simp only [FWrite.emit] at h
    obtain ⟨x, hx, rfl⟩ := List.mem_map.mp h
    exact ⟨_, List.mem_map.mpr ⟨x, hx, rfl⟩, rfl, trivial⟩
  | points code =>
    simp only [FWrite.emit] at h
    obtain ⟨q, _, h⟩ := List.mem_flatMap.mp h
    obtain ⟨x, hx, rfl⟩ := List.mem_map.mp h
    exact ⟨_, List.mem_map.mpr ⟨x, hx, rfl⟩, rfl, trivial⟩
  | lw withId =>
    simp only [FWrite.emit] at h
    obtain ⟨q, _, h⟩ := List.mem_flatMap.mp h
    simp only [LwVertex.pairs, List.mem_append] at h
    rcases h with (((h | h) | h) | h) | h
    · simp only [List.mem_cons, List.not_mem_nil, or_false] at h
      rcases h with rfl | rfl
      · exact ⟨(10, .f64), by simp [FWrite.wires], rfl, trivial⟩
      · exact ⟨(20, .f64), by simp [FWrite.wires], rfl, trivial⟩
    · cases withId <;> simp only [if_true, Bool.false_eq_true, if_false, List.not_mem_nil,
        List.mem_singleton] at h
      subst h
      exact ⟨(91, .i32), by simp [FWrite.wires], rfl, trivial⟩
    all_goals
      split at h
      · simp at h
      · simp only [List.mem_singleton] at h
        subst h
        first
          | exact ⟨(40, .f64), by simp [FWrite.wires], rfl, trivial⟩
          | exact ⟨(41, .f64), by simp [FWrite.wires], rfl, trivial⟩
          | exact ⟨(42, .f64), by simp [FWrite.wires], rfl, trivial⟩

theorem FWrite.wires_codes {t : Ty} (w : FWrite t) : w.wires.map Prod.fst = w.codes := by
  cases w with
  | lw withId => cases withId <;> rfl
  | _ => simp [FWrite.wires, FWrite.codes]

theorem FWrite.mem_emit {t : Ty} (w : FWrite t) (v : t.den) (p : CodePair) (h : p ∈ w.emit v) :
    p.code ∈ w.codes := by
  obtain ⟨x, hx, h1, _⟩ := w.mem_emit_wire v p h
  rw [← w.wires_codes, ← h1]
  exact List.mem_map_of_mem hx

def CodePairValue.wire : CodePairValue → Wire
  | .boolean _ => .bool
  | .integer _ => .i32
  | .long _ => .i64
  | .short _ => .i16
  | .double _ => .f64
  | .str _ => .str
  | .binary _ => .bytes

theorem CodePairValue.wire_is (v : CodePairValue) : v.wire.Is v := by cases v <;> trivial

/-- Everything the statement emits can be read without error. -/
def Cmd.safe (arms : List (Arm ds)) : Cmd ds → Bool
  | .const p => codeAccepts arms p.code p.value.wire
  | .field _ w => w.wires.all fun x => codeAccepts arms x.1 x.2
  | .computed code c _ => codeAccepts arms code c.wire

def Cmd.codes : Cmd ds → List Int
  | .const p => [p.code]
  | .field _ w => w.codes
  | .computed code _ _ => [code]

theorem Cmd.mem_codes (c : Cmd ds) (r : Rec ds) (p : CodePair) (h : p ∈ c.emit r) :
    p.code ∈ c.codes := by
  cases c with
  | const q => simp only [Cmd.emit, List.mem_singleton] at h; simp [Cmd.codes, h]
  | field i w => exact w.mem_emit _ p h
  | computed code c f =>
    simp only [Cmd.emit, List.mem_singleton] at h
    simp [Cmd.codes, h, WConv.write_code]

theorem Cmd.safe_accepts (arms : List (Arm ds)) (c : Cmd ds) (hs : c.safe arms = true) (r : Rec ds)
    (p : CodePair) (h : p ∈ c.emit r) : Accepts arms p := by
  cases c with
  | const q =>
    simp only [Cmd.emit, List.mem_singleton] at h
    subst h
    exact accepts_of arms p _ hs p.value.wire_is
  | field i w =>
    obtain ⟨x, hx, h1, h2⟩ := w.mem_emit_wire _ p h
    simp only [Cmd.safe, List.all_eq_true] at hs
    exact accepts_of arms p _ (h1 ▸ hs _ hx) h2
  | computed code c f =>
    simp only [Cmd.emit, List.mem_singleton] at h
    subst h
    exact accepts_of arms _ c.wire (by rw [WConv.write_code]; exact hs) (c.write_is code _)

theorem mem_emitAll {cmds : List (GCmd ds)} {v : Version} {r : Rec ds} {p : CodePair}
    (h : p ∈ emitAll cmds v r) : ∃ g ∈ cmds, g.holds v r = true ∧ p ∈ g.cmd.emit r := by
  obtain ⟨g, hg, hp⟩ := List.mem_flatMap.mp h
  unfold GCmd.emit at hp
  split at hp
  · exact ⟨g, hg, ‹_›, hp⟩
  · simp at hp

theorem emitAll_accepts (arms : List (Arm ds)) (cmds : List (GCmd ds)) (v : Version) (r : Rec ds)
    (h : (cmds.all fun g => g.cmd.safe arms) = true) : ∀ p ∈ emitAll cmds v r, Accepts arms p := by
  intro p hp
  obtain ⟨g, hg, _, hp⟩ := mem_emitAll hp
  exact g.cmd.safe_accepts arms (List.all_eq_true.mp h g hg) r p hp

/-- Arms with hand-written code only touch the fields they declare. -/
def CustomFrame (arms : List (Arm ds)) : Prop :=
  ∀ a ∈ arms, ∀ ts f, a.act = .custom ts f → ∀ r p r', f r p = .ok r' → ∀ j, j ∉ ts → r' j = r j

theorem Rec.set_self (r : Rec ds) (i : Nat) (v : (tyAt ds i).den) : r.set i v i = v := by
  simp [Rec.set]

theorem Rec.set_ne (r : Rec ds) {i j : Nat} (v : (tyAt ds i).den) (h : j ≠ i) :
    r.set i v j = r j := by
  simp [Rec.set, h]

theorem applyPair_frame {arms : List (Arm ds)} (hc : CustomFrame arms) {r r' : Rec ds}
    {p : CodePair} (h : applyPair arms r p = .ok r') {i : Nat} (hh : hits arms p.code i = false) :
    r' i = r i := by
  unfold applyPair at h
  unfold hits at hh
  cases hf : findArm arms p.code with
  | none => rw [hf] at h; simp only [Except.ok.injEq] at h; rw [h]
  | some a =>
    rw [hf] at h hh
    simp only at h hh
    cases ha : a.act with
    | on j act =>
      rw [ha] at h hh
      simp only [Act.apply] at h
      simp only [Act.hits, beq_eq_false_iff_ne, ne_eq] at hh
      cases hx : act.apply (r j) p with
      | error e => rw [hx] at h; cases h
      | ok x =>
        rw [hx] at h
        simp only [Except.map, Except.ok.injEq] at h
        rw [← h, Rec.set_ne _ _ (fun h => hh h.symm)]
    | custom ts f =>
      rw [ha] at h hh
      simp only [Act.hits, List.contains_eq_mem, decide_eq_false_iff_not] at hh
      exact hc a (List.mem_of_find?_eq_some hf) ts f ha r p r' h i hh

theorem foldPairs_append (arms : List (Arm ds)) (a b : List CodePair) (r : Rec ds) :
    foldPairs arms r (a ++ b) = (match foldPairs arms r a with
      | .ok r' => foldPairs arms r' b
      | .error e => .error e) := by
  induction a generalizing r with
  | nil => rfl
  | cons p ps ih =>
    simp only [List.cons_append, foldPairs]
    cases applyPair arms r p with
    | ok r' => exact ih r'
    | error e => rfl

theorem foldPairs_ok (arms : List (Arm ds)) (ps : List CodePair) (h : ∀ p ∈ ps, Accepts arms p)
    (r : Rec ds) : ∃ r', foldPairs arms r ps = .ok r' := by
  induction ps generalizing r with
  | nil => exact ⟨r, rfl⟩
  | cons p ps ih =>
    obtain ⟨r1, h1⟩ := h p List.mem_cons_self r
    obtain ⟨r2, h2⟩ := ih (fun q hq => h q (List.mem_cons_of_mem _ hq)) r1
    exact ⟨r2, by rw [foldPairs, h1]; exact h2⟩

theorem foldPairs_frame {arms : List (Arm ds)} (hc : CustomFrame arms) {i : Nat}
    (ps : List CodePair) (hh : ∀ p ∈ ps, hits arms p.code i = false) {r r' : Rec ds}
    (h : foldPairs arms r ps = .ok r') : r' i = r i := by
  induction ps generalizing r with
  | nil => simp only [foldPairs, Except.ok.injEq] at h; rw [h]
  | cons p ps ih =>
    rw [foldPairs] at h
    cases h1 : applyPair arms r p with
    | error e => rw [h1] at h; cases h
    | ok r1 =>
      rw [h1] at h
      rw [ih (fun q hq => hh q (List.mem_cons_of_mem _ hq)) h,
        applyPair_frame hc h1 (hh p List.mem_cons_self)]

/-- The arm of a code if it is an ordinary one on field `i`. -/
def armOn (arms : List (Arm ds)) (i : Nat) (code : Int) : Option (FRead (tyAt ds i)) :=
  match findArm arms code with
  | some a =>
    match a.act with
    | .on j act => if h : j = i then some (h ▸ act) else none
    | .custom _ _ => none
  | none => none

theorem armOn_apply {arms : List (Arm ds)} {i : Nat} {code : Int} {act : FRead (tyAt ds i)}
    (h : armOn arms i code = some act) (r : Rec ds) (p : CodePair) (hp : p.code = code) :
    applyPair arms r p = (act.apply (r i) p).map fun v => r.set i v := by
  unfold armOn at h
  unfold applyPair
  rw [hp]
  cases hf : findArm arms code with
  | none => rw [hf] at h; cases h
  | some a =>
    rw [hf] at h
    simp only at h ⊢
    cases ha : a.act with
    | custom ts f => rw [ha] at h; cases h
    | on j act' =>
      rw [ha] at h
      simp only at h
      split at h
      · rename_i hj
        subst hj
        simp only [Option.some.injEq] at h
        subst h
        rfl
      · cases h

/-- The arms undo the write statement. -/
def FWrite.undoneBy : {t : Ty} → (Int → Option (FRead t)) → FWrite t → Bool
  | _, look, .one code c =>
    match look code with
    | some (.set k) => k.matches c
    | _ => false
  | _, look, .many code c =>
    match look code with
    | some (.push k) => k.matches c
    | _ => false
  | _, look, .axes codes => codes.all fun (a, c) =>
    match look c with
    | some (.axis a') => decide (a = a')
    | _ => false
  | .pts three, look, .points code => (axesOf three).all fun a =>
    match look (code a) with
    | some (.pushAxis a') => decide (a = a')
    | _ => false
  | _, look, .lw withId =>
    (match look 10 with
      | some .lwNew => true
      | _ => false) &&
    (([(20, .y), (40, .startingWidth), (41, .endingWidth), (42, .bulge)] ++
      (if withId then [(91, .id)] else []) : List (Int × LwField))).all fun x =>
        match look x.1 with
        | some (.lwSet f) => decide (f = x.2)
        | _ => false

/-- The coordinates of a point added to the vectors of a point list. -/
def PtAcc.pushAll (axes : List Axis) (q : Point) (acc : PtAcc) : PtAcc :=
  axes.foldl (fun o a => o.push a (q.axis a)) acc

/-- The value of the field after its pairs have been read. -/
def FWrite.after : {t : Ty} → FWrite t → t.den → t.den → t.den
  | _, .one _ _, _, v => v
  | _, .many _ _, old, v => List.append old v
  | _, .axes codes, old, v => codes.foldl (fun o (a, _) => Point.setAxis o a (Point.axis v a)) old
  | .pts three, .points _, old, v => (PtAcc.pts v).foldl (fun o q => o.pushAll (axesOf three) q) old
  | _, .lw _, old, v => List.append old v

/-- Reads pairs into a single field. -/
def foldVal {t : Ty} (look : Int → Option (FRead t)) (old : t.den) :
    List CodePair → Except DxfErr t.den
  | [] => .ok old
  | p :: ps =>
    match look p.code with
    | none => foldVal look old ps
    | some act =>
      match act.apply old p with
      | .ok x => foldVal look x ps
      | .error e => .error e

theorem foldVal_cons {t : Ty} (look : Int → Option (FRead t)) (old : t.den) (p : CodePair)
    (ps : List CodePair) : foldVal look old (p :: ps) =
      match look p.code with
      | none => foldVal look old ps
      | some act =>
        match act.apply old p with
        | .ok x => foldVal look x ps
        | .error e => .error e := rfl

theorem foldVal_append {t : Ty} (look : Int → Option (FRead t)) (a b : List CodePair)
    (old x : t.den) (h : foldVal look old a = .ok x) :
    foldVal look old (a ++ b) = foldVal look x b := by
  induction a generalizing old with
  | nil =>
    simp only [foldVal, Except.ok.injEq] at h
    subst h
    rfl
  | cons p ps ih =>
    rw [List.cons_append, foldVal]
    rw [foldVal] at h
    cases hl : look p.code with
    | none => rw [hl] at h; exact ih _ h
    | some act =>
      rw [hl] at h
      simp only at h ⊢
      cases ha : act.apply old p with
      | error e => rw [ha] at h; cases h
      | ok y => rw [ha] at h; exact ih _ h

theorem foldVal_point {three : Bool} (look : Int → Option (FRead (.pts three)))
    (code : Axis → Int) (axes : List Axis)
    (hu : ∀ a ∈ axes, (match look (code a) with
      | some (.pushAxis a') => decide (a = a')
      | _ => false) = true) (q : Point) (old : PtAcc) :
    foldVal look old (axes.map fun a => .newF64 (code a) (q.axis a)) =
      .ok (old.pushAll axes q) := by
  induction axes generalizing old with
  | nil => rfl
  | cons a axes ih =>
    have h1 := hu a List.mem_cons_self
    simp only [List.map_cons, foldVal]
    rw [show (CodePair.newF64 (code a) (q.axis a)).code = code a from rfl]
    cases hl : look (code a) with
    | none => simp [hl] at h1
    | some act =>
      rw [hl] at h1
      cases act with
      | set k => simp at h1
      | pushAxis a' =>
        simp only [decide_eq_true_eq] at h1
        simp only [FRead.apply, CodePair.assertF64, CodePair.newF64, Except.map]
        rw [← h1]
        exact ih (fun y hy => hu y (List.mem_cons_of_mem _ hy)) _

theorem foldVal_lwSet (look : Int → Option (FRead .lw)) (c : Int) (f : LwField)
    (h : (match look c with
        | some (.lwSet f') => decide (f' = f)
        | _ => false) = true) (old : List LwVertex) (l l' : LwVertex) (p : CodePair)
    (hp : p.code = c) (hs : l.setField p f = .ok l') (hd : ∃ x, LwVertex.dflt.setField p f = .ok x) :
    foldVal look (List.append old [l]) [p] = .ok (List.append old [l']) := by
  cases hl : look c with
  | none => simp [hl] at h
  | some act =>
    rw [hl] at h
    cases act with
    | set k => simp at h
    | lwNew => simp at h
    | lwSet f' =>
      simp only [decide_eq_true_eq] at h
      subst h
      refine (foldVal_cons look (List.append old [l]) p []).trans ?_
      have : (FRead.lwSet f').apply (List.append old [l]) p = .ok (List.append old [l']) := by
        obtain ⟨x, hd⟩ := hd
        simp only [FRead.apply]
        have h1 : List.getLast? (List.append old [l]) = some l := by
          change (old ++ [l]).getLast? = _
          simp
        have h2 : List.dropLast (List.append old [l]) = old := by
          change (old ++ [l]).dropLast = _
          simp
        rw [hd]
        simp only
        rw [h1]
        simp only
        rw [h2, hs]
        rfl
      rw [hp, hl]
      simp only
      rw [this]
      rfl

theorem foldVal_lw (look : Int → Option (FRead .lw)) (withId : Bool)
    (hu : (FWrite.lw withId).undoneBy look = true) (v : LwVertex) (hf : v.Fits withId)
    (old : List LwVertex) : foldVal look old (v.pairs withId) = .ok (List.append old [v]) := by
  simp only [FWrite.undoneBy, Bool.and_eq_true, List.all_append, List.all_cons, List.all_nil,
    Bool.and_true] at hu
  obtain ⟨h10, ⟨h20, h40, h41, h42⟩, h91⟩ := hu
  obtain ⟨hid, hz⟩ := hf
  have hsw := hz v.startingWidth (by simp)
  have hew := hz v.endingWidth (by simp)
  have hb := hz v.bulge (by simp)
  unfold LwVertex.pairs
  have e1 : foldVal look old [.newF64 10 v.x] =
      .ok (List.append old [{ LwVertex.dflt with x := v.x }]) := by
    refine (foldVal_cons look old _ []).trans ?_
    rw [show (CodePair.newF64 10 v.x).code = 10 from rfl]
    cases hl : look 10 with
    | none => simp [hl] at h10
    | some act =>
      rw [hl] at h10
      cases act with
      | set k => simp at h10
      | lwSet f => simp at h10
      | lwNew => rfl
  have e2 := foldVal_lwSet look 20 .y h20 old { LwVertex.dflt with x := v.x }
    { LwVertex.dflt with x := v.x, y := v.y } (.newF64 20 v.y) rfl rfl ⟨_, rfl⟩
  have e3 : foldVal look (List.append old [{ LwVertex.dflt with x := v.x, y := v.y }])
      (if withId then [.newI32 91 v.id] else []) =
      .ok (List.append old [{ LwVertex.dflt with x := v.x, y := v.y, id := v.id }]) := by
    cases withId with
    | true =>
      simp only [if_true, List.all_cons, List.all_nil, Bool.and_true] at h91 ⊢
      exact foldVal_lwSet look 91 .id h91 old _ _ (.newI32 91 v.id) rfl rfl ⟨_, rfl⟩
    | false => simp only [Bool.false_eq_true, if_false, hid rfl]; rfl
  have e4 : foldVal look (List.append old [{ LwVertex.dflt with x := v.x, y := v.y, id := v.id }])
      (if F64.rustEq v.startingWidth F64.zero then [] else [.newF64 40 v.startingWidth]) =
      .ok (List.append old [{ LwVertex.dflt with
        x := v.x, y := v.y, id := v.id, startingWidth := v.startingWidth }]) := by
    split
    · rw [hsw ‹_›]; rfl
    · exact foldVal_lwSet look 40 .startingWidth h40 old _ _ (.newF64 40 v.startingWidth) rfl rfl ⟨_, rfl⟩
  have e5 : foldVal look (List.append old [{ LwVertex.dflt with
        x := v.x, y := v.y, id := v.id, startingWidth := v.startingWidth }])
      (if F64.rustEq v.endingWidth F64.zero then [] else [.newF64 41 v.endingWidth]) =
      .ok (List.append old [{ LwVertex.dflt with
        x := v.x, y := v.y, id := v.id, startingWidth := v.startingWidth
        endingWidth := v.endingWidth }]) := by
    split
    · rw [hew ‹_›]; rfl
    · exact foldVal_lwSet look 41 .endingWidth h41 old _ _ (.newF64 41 v.endingWidth) rfl rfl ⟨_, rfl⟩
  have e6 : foldVal look (List.append old [{ LwVertex.dflt with
        x := v.x, y := v.y, id := v.id, startingWidth := v.startingWidth
        endingWidth := v.endingWidth }])
      (if F64.rustEq v.bulge F64.zero then [] else [.newF64 42 v.bulge]) =
      .ok (List.append old [v]) := by
    split
    · have : v = { v with bulge := F64.zero } := by rw [← hb ‹_›]
      rw [this]; rfl
    · exact foldVal_lwSet look 42 .bulge h42 old _ _ (.newF64 42 v.bulge) rfl rfl ⟨_, rfl⟩
  rw [show [CodePair.newF64 10 v.x, .newF64 20 v.y] = [.newF64 10 v.x] ++ [.newF64 20 v.y] from rfl]
  simp only [List.append_assoc]
  rw [foldVal_append _ _ _ _ _ e1, foldVal_append _ _ _ _ _ e2, foldVal_append _ _ _ _ _ e3,
    foldVal_append _ _ _ _ _ e4, foldVal_append _ _ _ _ _ e5, e6]

theorem FWrite.emit_fold {t : Ty} (look : Int → Option (FRead t)) (w : FWrite t)
    (hu : w.undoneBy look = true) (d v old : t.den) (hf : w.Fits d v) :
    foldVal look old (w.emit v) = .ok (w.after old v) := by
  cases w with
  | one code c =>
    simp only [FWrite.undoneBy] at hu
    cases hl : look code with
    | none => simp [hl] at hu
    | some act =>
      rw [hl] at hu
      cases act with
      | set k =>
        simp only at hu
        simp only [FWrite.emit, foldVal, WConv.write_code, hl, FRead.apply,
          k.read_write c code v hu hf, FWrite.after]
      | push k => simp at hu
      | axis a => simp at hu
      | pushAxis a => simp at hu
      | lwNew => simp at hu
      | lwSet f => simp at hu
  | many code c =>
    rename_i t
    simp only [FWrite.undoneBy] at hu
    cases hl : look code with
    | none => simp [hl] at hu
    | some act =>
      rw [hl] at hu
      cases act with
      | set k => simp at hu
      | push k =>
        simp only at hu
        simp only [FWrite.Fits, Ty.elems] at hf
        simp only [FWrite.emit, FWrite.after]
        clear d
        revert v old
        change ∀ v old : List t.den, (∀ x ∈ v, c.Fits x) →
          foldVal look old (v.map (c.write code)) = .ok (old ++ v)
        intro v
        induction v with
        | nil => intro old _; simp [foldVal]
        | cons x xs ih =>
          intro old hf
          have hx := k.read_write c code x hu (hf x List.mem_cons_self)
          simp only [List.map_cons, foldVal, WConv.write_code, hl, FRead.apply, hx, Except.map]
          rw [show List.append old [x] = old ++ [x] from rfl,
            ih (old ++ [x]) fun y hy => hf y (List.mem_cons_of_mem _ hy)]
          simp
  | axes codes =>
    simp only [FWrite.undoneBy, List.all_eq_true] at hu
    clear hf d
    simp only [FWrite.emit, FWrite.after]
    induction codes generalizing old with
    | nil => rfl
    | cons x xs ih =>
      obtain ⟨a, c⟩ := x
      have h1 := hu (a, c) List.mem_cons_self
      simp only at h1
      simp only [List.map_cons, foldVal]
      rw [show (CodePair.newF64 c (Point.axis v a)).code = c from rfl]
      cases hl : look c with
      | none => simp [hl] at h1
      | some act =>
        rw [hl] at h1
        cases act with
        | set k => simp at h1
        | axis a' =>
          simp only [decide_eq_true_eq] at h1
          subst h1
          simp only [FRead.apply, CodePair.assertF64, CodePair.newF64, Except.map]
          exact ih _ fun y hy => hu y (List.mem_cons_of_mem _ hy)
  | points codes =>
    rename_i three
    simp only [FWrite.undoneBy, List.all_eq_true] at hu
    simp only [FWrite.emit, FWrite.after]
    clear hf d
    generalize PtAcc.pts v = qs
    induction qs generalizing old with
    | nil => rfl
    | cons q qs ih =>
      rw [List.flatMap_cons, foldVal_append _ _ _ _ _ (foldVal_point look codes _ hu q old)]
      exact ih _
  | lw withId =>
    simp only [FWrite.Fits] at hf
    simp only [FWrite.emit, FWrite.after]
    clear d
    revert v old
    change ∀ v old : List LwVertex, (∀ x, List.Mem x v → x.Fits withId) →
      foldVal look old (v.flatMap (LwVertex.pairs withId)) = .ok (old ++ v)
    intro v
    induction v with
    | nil => intro old _; simp [foldVal]
    | cons x xs ih =>
      intro old hf
      rw [List.flatMap_cons, foldVal_append _ _ _ _ _
        (foldVal_lw look withId hu x (hf x (.head _)) old)]
      have := ih (List.append old [x]) fun y hy => hf y (.tail _ hy)
      rw [this, show List.append old [x] = old ++ [x] from rfl]
      simp

theorem FWrite.undoneBy_some {t : Ty} (look : Int → Option (FRead t)) (w : FWrite t)
    (hu : w.undoneBy look = true) : ∀ c ∈ w.codes, (look c).isSome = true := by
  cases w with
  | one code c =>
    simp only [FWrite.undoneBy] at hu
    cases hl : look code with
    | none => simp [hl] at hu
    | some act => simp [FWrite.codes, hl]
  | many code c =>
    simp only [FWrite.undoneBy] at hu
    cases hl : look code with
    | none => simp [hl] at hu
    | some act => simp [FWrite.codes, hl]
  | axes codes =>
    simp only [FWrite.undoneBy, List.all_eq_true] at hu
    intro c hc
    obtain ⟨x, hx, rfl⟩ := List.mem_map.mp hc
    have h1 := hu x hx
    cases hl : look x.2 with
    | none => simp [hl] at h1
    | some act => rfl
  | points code =>
    simp only [FWrite.undoneBy, List.all_eq_true] at hu
    intro c hc
    obtain ⟨x, hx, rfl⟩ := List.mem_map.mp hc
    have h1 := hu x hx
    cases hl : look (code x) with
    | none => simp [hl] at h1
    | some act => rfl
  | lw withId =>
    simp only [FWrite.undoneBy, Bool.and_eq_true, List.all_eq_true] at hu
    intro c hc
    by_cases h10 : c = 10
    · subst h10
      cases hl : look 10 with
      | none => simp [hl] at hu
      | some act => rfl
    · have : ∃ f, (c, f) ∈ [(20, LwField.y), (40, .startingWidth), (41, .endingWidth),
          (42, .bulge)] ++ (if withId then [(91, .id)] else []) := by
        cases withId <;> simp [FWrite.codes, h10] at hc ⊢ <;>
          first
            | (rcases hc with rfl | rfl | rfl | rfl | rfl <;> simp)
            | (rcases hc with rfl | rfl | rfl | rfl <;> simp)
      obtain ⟨f, hf⟩ := this
      have h1 := hu.2 _ hf
      cases hl : look c with
      | none => simp [hl] at h1
      | some act => rfl

theorem foldPairs_val (arms : List (Arm ds)) (i : Nat) (ps : List CodePair)
    (h : ∀ p ∈ ps, (armOn arms i p.code).isSome = true) (r : Rec ds) {x : (tyAt ds i).den}
    (hx : foldVal (armOn arms i) (r i) ps = .ok x) : ∃ r', foldPairs arms r ps = .ok r' ∧ r' i = x ∧
      ∀ j, j ≠ i → r' j = r j := by
  induction ps generalizing r with
  | nil =>
    simp only [foldVal, Except.ok.injEq] at hx
    exact ⟨r, rfl, hx, fun _ _ => rfl⟩
  | cons p ps ih =>
    obtain ⟨act, ha⟩ := Option.isSome_iff_exists.mp (h p List.mem_cons_self)
    rw [foldVal, ha] at hx
    simp only at hx
    rw [foldPairs, armOn_apply ha r p rfl]
    cases hap : act.apply (r i) p with
    | error e => rw [hap] at hx; cases hx
    | ok y =>
      rw [hap] at hx
      simp only [Except.map] at hx ⊢
      have := ih (fun q hq => h q (List.mem_cons_of_mem _ hq)) (r.set i y)
        (by rw [Rec.set_self]; exact hx)
      obtain ⟨r', h1, h2, h3⟩ := this
      exact ⟨r', h1, h2, fun j hj => by rw [h3 j hj, Rec.set_ne _ _ hj]⟩

/-! ### Whole records -/

/-- The statement as one about field `i`. -/
def Cmd.onField (i : Nat) : Cmd ds → Option (FWrite (tyAt ds i))
  | .field j w => if h : j = i then some (h ▸ w) else none
  | _ => none

/-- Every statement for field `i` is undone by the reader, and no other statement emits a code
that the reader stores in field `i`. -/
def fieldOK (arms : List (Arm ds)) (cmds : List (GCmd ds)) (i : Nat) : Bool :=
  cmds.all fun g =>
    match g.cmd.onField i with
    | some w => w.undoneBy (armOn arms i)
    | none => g.cmd.codes.all fun c => !hits arms c i

theorem onField_writes (g : GCmd ds) (i : Nat) :
    g.writes i = (g.cmd.onField i).isSome := by
  unfold GCmd.writes Cmd.onField
  cases g.cmd with
  | const p => rfl
  | computed => rfl
  | field j w =>
    simp only
    by_cases h : j = i <;> simp [h]

theorem onField_eq {g : GCmd ds} {i : Nat} {w : FWrite (tyAt ds i)}
    (h : g.cmd.onField i = some w) : g.cmd = .field i w := by
  unfold Cmd.onField at h
  cases hg : g.cmd with
  | const p => rw [hg] at h; cases h
  | computed => rw [hg] at h; cases h
  | field j w' =>
    rw [hg] at h
    simp only at h
    split at h
    · rename_i hj
      subst hj
      simp only [Option.some.injEq] at h
      rw [h]
    · cases h

/-- The value of field `i` after reading what the statements emit. -/
def afterAll (i : Nat) (cmds : List (GCmd ds)) (v : Version) (r : Rec ds)
    (old : (tyAt ds i).den) : (tyAt ds i).den :=
  match cmds with
  | [] => old
  | g :: gs =>
    match g.cmd.onField i with
    | some w => afterAll i gs v r (if g.holds v r then w.after old (r i) else old)
    | none => afterAll i gs v r old

theorem fold_afterAll {arms : List (Arm ds)} (hc : CustomFrame arms) (i : Nat)
    (cmds : List (GCmd ds)) (v : Version) (r : Rec ds) (hok : fieldOK arms cmds i = true)
    (hrep : Representable cmds v r i) {r0 r' : Rec ds}
    (h : foldPairs arms r0 (emitAll cmds v r) = .ok r') :
    r' i = afterAll i cmds v r (r0 i) := by
  induction cmds generalizing r0 with
  | nil =>
    simp only [emitAll, List.flatMap_nil, foldPairs, Except.ok.injEq] at h
    rw [afterAll, h]
  | cons g gs ih =>
    simp only [fieldOK, List.all_cons, Bool.and_eq_true] at hok
    have hrep' : Representable gs v r i := fun g' hg' => hrep g' (List.mem_cons_of_mem _ hg')
    simp only [emitAll, List.flatMap_cons] at h
    rw [foldPairs_append] at h
    cases h1 : foldPairs arms r0 (g.emit v r) with
    | error e => rw [h1] at h; cases h
    | ok r1 =>
      rw [h1] at h
      have hrest := ih hok.2 hrep' h
      rw [hrest, afterAll]
      cases hw : g.cmd.onField i with
      | none =>
        have hcl := hok.1
        rw [hw] at hcl
        simp only [List.all_eq_true, Bool.not_eq_true'] at hcl
        simp only
        congr 1
        unfold GCmd.emit at h1
        split at h1
        · exact foldPairs_frame hc _ (fun p hp => hcl _ (g.cmd.mem_codes r p hp)) h1
        · simp only [foldPairs, Except.ok.injEq] at h1; rw [h1]
      | some w =>
        have hcl := hok.1
        rw [hw] at hcl
        simp only at hcl ⊢
        congr 1
        have hg := onField_eq hw
        unfold GCmd.emit at h1
        by_cases hh : g.holds v r = true
        · rw [if_pos hh, hg] at h1
          rw [if_pos hh]
          have hfit := hrep g List.mem_cons_self hh w hg
          have hv := w.emit_fold (armOn arms i) hcl _ (r i) (r0 i) hfit
          obtain ⟨r2, h2, h3, _⟩ := foldPairs_val arms i _
            (fun p hp => w.undoneBy_some _ hcl _ (w.mem_emit _ p hp)) r0 hv
          rw [show (Cmd.field i w).emit r = w.emit (r i) from rfl, h2] at h1
          simp only [Except.ok.injEq] at h1
          rw [← h1, h3]
        · rw [if_neg hh] at h1
          rw [if_neg hh]
          simp only [foldPairs, Except.ok.injEq] at h1
          rw [h1]

/-- Types whose fields grow while they are read. -/
def Ty.grows : Ty → Bool
  | .list _ => true
  | .pts _ => true
  | .lw => true
  | _ => false

/-- The empty value of a type that grows. -/
def Ty.isEmpty : (t : Ty) → t.den → Bool
  | .list t, d => List.isEmpty (Ty.elems (t := t) d)
  | .pts _, d => PtAcc.xs d == [] && PtAcc.ys d == [] && PtAcc.zs d == [] && PtAcc.pts d == []
  | .lw, d => List.isEmpty (α := LwVertex) d
  | _, _ => true

/-- A field that grows starts empty and at most one statement writes it in any version. -/
def growOK (cmds : List (GCmd ds)) (i : Nat) : Bool :=
  !(tyAt ds i).grows ||
  ((tyAt ds i).isEmpty (Rec.dflt ds i) &&
    Version.all.all fun v =>
      decide ((cmds.filter fun g => g.writes i && versionGate g.min g.max v).length ≤ 1))

/-- The same, and the field needs no work after reading. -/
def listOK (cmds : List (GCmd ds)) (i : Nat) : Bool :=
  growOK cmds i &&
  match tyAt ds i with
  | .pts _ => false
  | _ => true

theorem Point.axis_ext {p q : Point} (h : ∀ a, p.axis a = q.axis a) : p = q := by
  have hx := h .x
  have hy := h .y
  have hz := h .z
  cases p; cases q
  simp_all [Point.axis]

theorem Point.axis_setAxis (p : Point) (a b : Axis) (x : F64) :
    (p.setAxis a x).axis b = if b = a then x else p.axis b := by
  cases a <;> cases b <;> simp [Point.setAxis, Point.axis]

theorem setAxes_axis (codes : List (Axis × Int)) (v old : Point) (b : Axis) :
    (codes.foldl (fun o x => Point.setAxis o x.1 (Point.axis v x.1)) old).axis b =
      if b ∈ codes.map Prod.fst then v.axis b else old.axis b := by
  induction codes generalizing old with
  | nil => simp
  | cons x xs ih =>
    rw [List.foldl_cons, ih, Point.axis_setAxis]
    by_cases h1 : b = x.1
    · simp [h1]
    · by_cases h2 : b ∈ xs.map Prod.fst
      · simp [h2]
      · simp [h1, h2]

/-- Reading a representable value into a field that holds the default value or already holds
it gives the value. -/
theorem FWrite.after_eq {t : Ty} (w : FWrite t) (d v old : t.den) (hf : w.Fits d v)
    (hold : old = d ∨ old = v) (hg : t.grows = false) : w.after old v = v := by
  cases w with
  | one c k => rfl
  | many c k => simp [Ty.grows] at hg
  | points code => simp [Ty.grows] at hg
  | lw withId => simp [Ty.grows] at hg
  | axes codes =>
    simp only [FWrite.Fits] at hf
    apply Point.axis_ext
    intro b
    have := setAxes_axis codes v old b
    rw [show (FWrite.axes codes).after old v =
      codes.foldl (fun o x => Point.setAxis o x.1 (Point.axis v x.1)) old from rfl, this]
    by_cases hb : b ∈ codes.map Prod.fst
    · rw [if_pos hb]
    · rw [if_neg hb]
      rcases hold with rfl | h
      · exact (hf b hb).symm
      · rw [h]

theorem pushAll_three (qs : List Point) (acc : PtAcc) :
    qs.foldl (fun o q => o.pushAll (axesOf true) q) acc =
      ⟨acc.xs ++ qs.map Point.x, acc.ys ++ qs.map Point.y, acc.zs ++ qs.map Point.z, acc.pts⟩ := by
  induction qs generalizing acc with
  | nil => simp
  | cons q qs ih => rw [List.foldl_cons, ih]; simp [PtAcc.pushAll, axesOf, PtAcc.push, Point.axis]

theorem pushAll_two (qs : List Point) (acc : PtAcc) :
    qs.foldl (fun o q => o.pushAll (axesOf false) q) acc =
      ⟨acc.xs ++ qs.map Point.x, acc.ys ++ qs.map Point.y, acc.zs, acc.pts⟩ := by
  induction qs generalizing acc with
  | nil => simp
  | cons q qs ih => rw [List.foldl_cons, ih]; simp [PtAcc.pushAll, axesOf, PtAcc.push, Point.axis]

theorem combinePoints3_map (ps : List Point) :
    combinePoints3 (ps.map Point.x) (ps.map Point.y) (ps.map Point.z) = ps := by
  induction ps with
  | nil => rfl
  | cons p ps ih => simpa [combinePoints3] using ih

theorem combinePoints2_map (ps : List Point) (h : ∀ q ∈ ps, q.z = F64.zero) :
    combinePoints2 (ps.map Point.x) (ps.map Point.y) = ps := by
  induction ps with
  | nil => rfl
  | cons p ps ih =>
    have h1 := h p List.mem_cons_self
    have := ih fun q hq => h q (List.mem_cons_of_mem _ hq)
    simp only [combinePoints2, List.map_cons, List.zip_cons_cons] at this ⊢
    rw [this, ← h1]

theorem isEmpty_pts {three : Bool} {d : PtAcc} (h : (Ty.pts three).isEmpty d = true) :
    d = ⟨[], [], [], []⟩ := by
  obtain ⟨a, b, c, e⟩ := d
  change (a == [] && b == [] && c == [] && e == []) = true at h
  simp only [Bool.and_eq_true, beq_iff_eq] at h
  obtain ⟨⟨⟨rfl, rfl⟩, rfl⟩, rfl⟩ := h
  rfl

/-- Reading a representable value into an empty field that grows gives the value, once the
coordinates of points are combined. -/
theorem FWrite.after_grow {t : Ty} (w : FWrite t) (d v : t.den) (hf : w.Fits d v)
    (hd : t.isEmpty d = true) (hg : t.grows = true) : t.finish (w.after d v) = v := by
  cases w with
  | one c k =>
    cases t with
    | pts three => nomatch k
    | _ => rfl
  | many c k =>
    rename_i u
    have h2 : Ty.elems d = [] := List.isEmpty_iff.mp hd
    change List.append (Ty.elems d) (Ty.elems v) = Ty.elems v
    rw [h2]
    rfl
  | axes codes => cases hg
  | lw withId =>
    have h2 : d = ([] : List LwVertex) := List.isEmpty_iff.mp hd
    subst h2
    rfl
  | points code =>
    rename_i three
    replace hd := isEmpty_pts hd
    subst hd
    obtain ⟨h1, h2, h3, h4⟩ := hf
    revert v
    change ∀ v : PtAcc, v.xs = [] → v.ys = [] → v.zs = [] →
      (three = false → ∀ q ∈ v.pts, q.z = F64.zero) →
      PtAcc.combine three (v.pts.foldl (fun o q => o.pushAll (axesOf three) q) ⟨[], [], [], []⟩) = v
    rintro ⟨xs, ys, zs, ps⟩ h1 h2 h3 h4
    simp only at h1 h2 h3 h4
    subst h1 h2 h3
    cases three with
    | true => simp [pushAll_three, PtAcc.combine, combinePoints3_map]
    | false => simp [pushAll_two, PtAcc.combine, combinePoints2_map ps (h4 rfl)]

theorem afterAll_not_written (i : Nat) (cmds : List (GCmd ds)) (v : Version) (r : Rec ds)
    (old : (tyAt ds i).den) (h : ¬ Written cmds v r i) : afterAll i cmds v r old = old := by
  induction cmds generalizing old with
  | nil => rfl
  | cons g gs ih =>
    have h' : ¬ Written gs v r i := fun ⟨g', hg', hw⟩ => h ⟨g', List.mem_cons_of_mem _ hg', hw⟩
    rw [afterAll]
    cases hw : g.cmd.onField i with
    | none => exact ih _ h'
    | some w =>
      have : ¬ g.holds v r = true := fun hh =>
        h ⟨g, List.mem_cons_self, by rw [onField_writes, hw]; rfl, hh⟩
      simp only [if_neg this]
      exact ih _ h'

theorem afterAll_written (i : Nat) (cmds : List (GCmd ds)) (v : Version) (r : Rec ds)
    (hrep : Representable cmds v r i) (hg : (tyAt ds i).grows = false)
    (old : (tyAt ds i).den) (hold : old = Rec.dflt ds i ∨ old = r i)
    (h : Written cmds v r i ∨ old = r i) : afterAll i cmds v r old = r i := by
  induction cmds generalizing old with
  | nil =>
    rcases h with ⟨g, hg, _⟩ | h
    · simp at hg
    · exact h
  | cons g gs ih =>
    have hrep' : Representable gs v r i := fun g' hg' => hrep g' (List.mem_cons_of_mem _ hg')
    rw [afterAll]
    cases hw : g.cmd.onField i with
    | none =>
      have hnw : g.writes i = false := by rw [onField_writes, hw]; rfl
      refine ih hrep' old hold (h.imp_left fun ⟨g', hg', h1, h2⟩ => ?_)
      rcases List.mem_cons.mp hg' with rfl | hg'
      · rw [hnw] at h1; cases h1
      · exact ⟨g', hg', h1, h2⟩
    | some w =>
      have hgc := onField_eq hw
      by_cases hh : g.holds v r = true
      · simp only [if_pos hh]
        have hfit := hrep g List.mem_cons_self hh w hgc
        rw [w.after_eq _ (r i) old hfit hold hg]
        exact ih hrep' _ (.inr rfl) (.inr rfl)
      · simp only [if_neg hh]
        refine ih hrep' old hold (h.imp_left fun ⟨g', hg', h1, h2⟩ => ?_)
        rcases List.mem_cons.mp hg' with rfl | hg'
        · exact absurd h2 hh
        · exact ⟨g', hg', h1, h2⟩

theorem afterAll_grow (i : Nat) (cmds : List (GCmd ds)) (v : Version) (r : Rec ds)
    (hrep : Representable cmds v r i) (hg : (tyAt ds i).grows = true)
    (hd : (tyAt ds i).isEmpty (Rec.dflt ds i) = true)
    (hl : (cmds.filter fun g => g.writes i && versionGate g.min g.max v).length ≤ 1)
    (h : Written cmds v r i) :
    (tyAt ds i).finish (afterAll i cmds v r (Rec.dflt ds i)) = r i := by
  induction cmds with
  | nil =>
    obtain ⟨g, hg, _⟩ := h
    simp at hg
  | cons g gs ih =>
    have hrep' : Representable gs v r i := fun g' hg' => hrep g' (List.mem_cons_of_mem _ hg')
    rw [afterAll]
    have hl' : (gs.filter fun g => g.writes i && versionGate g.min g.max v).length ≤ 1 := by
      rw [List.filter_cons] at hl
      split at hl
      · rw [List.length_cons] at hl; omega
      · exact hl
    cases hw : g.cmd.onField i with
    | none =>
      have hnw : g.writes i = false := by rw [onField_writes, hw]; rfl
      refine ih hrep' hl' ?_
      obtain ⟨g', hg', h1, h2⟩ := h
      rcases List.mem_cons.mp hg' with rfl | hg'
      · rw [hnw] at h1; cases h1
      · exact ⟨g', hg', h1, h2⟩
    | some w =>
      have hgw : g.writes i = true := by rw [onField_writes, hw]; rfl
      have hgc := onField_eq hw
      by_cases hh : g.holds v r = true
      · simp only [if_pos hh]
        have hfit := hrep g List.mem_cons_self hh w hgc
        rw [afterAll_not_written]
        · exact w.after_grow _ (r i) hfit hd hg
        · rintro ⟨g', hg', h1, h2⟩
          have hv : versionGate g.min g.max v = true := by
            simp only [GCmd.holds, Bool.and_eq_true] at hh; exact hh.1
          have hv' : versionGate g'.min g'.max v = true := by
            simp only [GCmd.holds, Bool.and_eq_true] at h2; exact h2.1
          rw [List.filter_cons, if_pos (by simp [hgw, hv]), List.length_cons] at hl
          have : g' ∈ gs.filter fun g => g.writes i && versionGate g.min g.max v :=
            List.mem_filter.mpr ⟨hg', by simp [h1, hv']⟩
          rw [List.length_eq_zero_iff.mp (by omega :
            (gs.filter fun g => g.writes i && versionGate g.min g.max v).length = 0)] at this
          simp at this
      · simp only [if_neg hh]
        refine ih hrep' hl' ?_
        obtain ⟨g', hg', h1, h2⟩ := h
        rcases List.mem_cons.mp hg' with rfl | hg'
        · exact absurd h2 hh
        · exact ⟨g', hg', h1, h2⟩

theorem Ty.finish_of_not_grows {t : Ty} (h : t.grows = false) (x : t.den) : t.finish x = x := by
  cases t <;> first | rfl | cases h

theorem Ty.finish_empty {t : Ty} (x : t.den) (h : t.isEmpty x = true) : t.finish x = x := by
  cases t with
  | pts three =>
    replace h := isEmpty_pts h
    subst h
    cases three <;> rfl
  | _ => rfl

/-- Round trip of one field, once the coordinates of points are combined: a written,
representable value comes back; a field that is not written comes back with its default value. -/
theorem field_roundtrip_finish {arms : List (Arm ds)} (hc : CustomFrame arms) (i : Nat)
    (cmds : List (GCmd ds)) (v : Version) (r : Rec ds) (hok : fieldOK arms cmds i = true)
    (hl : growOK cmds i = true) (hrep : Representable cmds v r i) {r' : Rec ds}
    (h : foldPairs arms (Rec.dflt ds) (emitAll cmds v r) = .ok r') :
    (tyAt ds i).finish (r' i) = if Written cmds v r i then r i else Rec.dflt ds i := by
  rw [fold_afterAll hc i cmds v r hok hrep h]
  unfold growOK at hl
  cases hg : (tyAt ds i).grows with
  | false =>
    rw [Ty.finish_of_not_grows hg]
    split
    · exact afterAll_written i cmds v r hrep hg _ (.inl rfl) (.inl ‹_›)
    · exact afterAll_not_written i cmds v r _ ‹_›
  | true =>
    rw [hg] at hl
    simp only [Bool.not_true, Bool.false_or, Bool.and_eq_true, List.all_eq_true,
      decide_eq_true_eq] at hl
    split
    · exact afterAll_grow i cmds v r hrep hg hl.1 (hl.2 v (by cases v <;> decide)) ‹_›
    · rw [afterAll_not_written i cmds v r _ ‹_›]
      exact Ty.finish_empty _ hl.1

theorem listOK_spec {cmds : List (GCmd ds)} {i : Nat} (h : listOK cmds i = true) :
    growOK cmds i = true ∧ ∀ x : (tyAt ds i).den, (tyAt ds i).finish x = x := by
  unfold listOK at h
  simp only [Bool.and_eq_true] at h
  refine ⟨h.1, ?_⟩
  generalize tyAt ds i = t at h
  intro x
  cases t <;> first | rfl | simp at h

/-- Round trip of one field: a written, representable value comes back; a field that is not
written comes back with its default value. -/
theorem field_roundtrip {arms : List (Arm ds)} (hc : CustomFrame arms) (i : Nat)
    (cmds : List (GCmd ds)) (v : Version) (r : Rec ds) (hok : fieldOK arms cmds i = true)
    (hl : listOK cmds i = true) (hrep : Representable cmds v r i) {r' : Rec ds}
    (h : foldPairs arms (Rec.dflt ds) (emitAll cmds v r) = .ok r') :
    r' i = if Written cmds v r i then r i else Rec.dflt ds i := by
  obtain ⟨h1, h2⟩ := listOK_spec hl
  rw [← field_roundtrip_finish hc i cmds v r hok h1 hrep h, h2]

end Dxf
