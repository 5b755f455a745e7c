import Verif.Model.Version
import Verif.Model.Color
import Verif.Model.Small
import Verif.Data.Flags

/-! # C28 - C32, C38 - C40, C43: versions, colours, flags and small value types -/

namespace Dxf

/-! ## C28 Version gating is monotone and exact -/

theorem mem_all (v : Version) : v ∈ Version.all := by cases v <;> decide

/-- The order of versions is the release order: the list `Version.all` is strictly increasing
and complete, and the comparison is a total order. -/
theorem C28_order : Version.all.Pairwise (fun a b => ¬ b ≤ a) ∧ (∀ v, v ∈ Version.all) ∧
    (∀ a b : Version, a ≤ b ∨ b ≤ a) ∧ (∀ a b c : Version, a ≤ b → b ≤ c → a ≤ c) ∧
    (∀ a b : Version, a ≤ b → b ≤ a → a = b) := by
  refine ⟨by decide, mem_all, fun a b => Nat.le_total _ _, fun _ _ _ => Nat.le_trans, ?_⟩
  intro a b h1 h2
  have h : a.idx = b.idx := Nat.le_antisymm h1 h2
  have key : ∀ a ∈ Version.all, ∀ b ∈ Version.all, a.idx = b.idx → a = b := by decide
  exact key a (mem_all a) b (mem_all b) h

/-- A field is written for exactly the versions from its minimum to its maximum. -/
theorem C28_gate (min max : Option Version) (v : Version) :
    versionGate min max v = true ↔ (∀ m, min = some m → m ≤ v) ∧ (∀ m, max = some m → v ≤ m) := by
  unfold versionGate
  cases min <;> cases max <;> simp

/-- A field without a maximum stays written in all later versions, one without a minimum in all
earlier ones. -/
theorem C28_monotone (min max : Option Version) (v w : Version) (h : v ≤ w) :
    (max = none → versionGate min max v = true → versionGate min max w = true) ∧
    (min = none → versionGate min max w = true → versionGate min max v = true) := by
  refine ⟨fun hm hv => ?_, fun hm hv => ?_⟩ <;> rw [C28_gate] at * <;> subst hm
  · exact ⟨fun m e => Nat.le_trans (hv.1 m e) h, by simp⟩
  · exact ⟨by simp, fun m e => Nat.le_trans h (hv.2 m e)⟩

example : versionGate (some .r13) (some .r2000) .r14 = true ∧
    versionGate (some .r13) (some .r2000) .r12 = false ∧
    versionGate (some .r13) (some .r2000) .r2004 = false := by decide

/-! ## C29 Version strings identify the version -/

/-- The text of every version except R11 reads back as that version. -/
theorem C29_roundtrip (v : Version) (h : v ≠ .r11) :
    Version.from? v.display = .ok v ∧ Version.fromSafe v.display = v := by
  have key : ∀ v ∈ Version.all, v ≠ .r11 →
      Version.from? v.display = .ok v ∧ Version.fromSafe v.display = v := by decide +kernel
  exact key v (mem_all v) h

/-- R11 has the text of R12 and reads back as R12. -/
theorem C29_r11 : Version.r11.display = Version.r12.display ∧
    Version.from? Version.r11.display = .ok .r12 := by decide +kernel

/-- Apart from that, different versions have different texts. -/
theorem C29_injective (v w : Version) (h : v.display = w.display) :
    v = w ∨ (v = .r11 ∧ w = .r12) ∨ (v = .r12 ∧ w = .r11) := by
  have key : ∀ v ∈ Version.all, ∀ w ∈ Version.all, v.display = w.display →
      v = w ∨ (v = .r11 ∧ w = .r12) ∨ (v = .r12 ∧ w = .r11) := by decide +kernel
  exact key v (mem_all v) w (mem_all w) h

/-- A text is accepted exactly when it is in the list of known texts, and then gives the listed
version; every other text is an error, and R12 for the header reader. -/
theorem C29_known (s : Str) (v : Version) : Version.from? s = .ok v ↔ (s, v) ∈ Version.arms := by
  unfold Version.from?
  constructor
  · intro h
    cases hf : Version.arms.find? (fun a => a.1 = s) with
    | none => rw [hf] at h; simp at h
    | some a =>
      rw [hf] at h
      simp only [Except.ok.injEq] at h
      have h1 := List.find?_some hf
      have h2 := List.mem_of_find?_eq_some hf
      simp only [decide_eq_true_eq] at h1
      obtain ⟨s', v'⟩ := a
      simp only at h h1
      rw [← h, ← h1]
      exact h2
  · intro h
    have key : ∀ a ∈ Version.arms, (Version.arms.find? fun b => b.1 = a.1) = some a := by
      decide +kernel
    have := key _ h
    simp only at this
    rw [this]

theorem C29_unknown (s : Str) (h : ∀ v, (s, v) ∉ Version.arms) :
    Version.from? s = .error (.unexpectedEnumValue 0) ∧ Version.fromSafe s = .r12 := by
  have h1 : Version.from? s = .error (.unexpectedEnumValue 0) := by
    unfold Version.from?
    cases hf : Version.arms.find? (fun a => a.1 = s) with
    | none => rfl
    | some a =>
      have h1 := List.find?_some hf
      simp only [decide_eq_true_eq] at h1
      exact absurd (h1 ▸ List.mem_of_find?_eq_some hf : (s, a.2) ∈ _) (h a.2)
  refine ⟨h1, ?_⟩
  unfold Version.fromSafe
  rw [h1]

example : Version.fromSafe (str!"AC9999") = .r12 ∧ Version.fromSafe (str!"17.2") = .r2007 := by
  decide +kernel

/-! ## C30 Colour classification is a partition -/

/-- The classes of a colour value. -/
def colorClasses (c : Color) : List Bool :=
  [c.isByLayer, c.isByBlock, c.isByEntity, c.isTurnedOff, c.isIndex,
   decide (258 ≤ c.raw.toInt)]

theorem raw_ofInt (c : Color) : c.raw = BitVec.ofInt 16 c.raw.toInt := by simp

/-- Every stored value is in exactly one class (the last class is "out of range"). -/
theorem C30_partition (c : Color) : (colorClasses c).count true = 1 := by
  have hl : c.isByLayer = decide (c.raw.toInt = 256) := by
    simp only [Color.isByLayer, decide_eq_decide]
    exact ⟨fun h => by rw [h]; decide, fun h => by rw [raw_ofInt c, h]; decide⟩
  have hb : c.isByBlock = decide (c.raw.toInt = 0) := by
    simp only [Color.isByBlock, decide_eq_decide]
    exact ⟨fun h => by rw [h]; decide, fun h => by rw [raw_ofInt c, h]; decide⟩
  have he : c.isByEntity = decide (c.raw.toInt = 257) := by
    simp only [Color.isByEntity, decide_eq_decide]
    exact ⟨fun h => by rw [h]; decide, fun h => by rw [raw_ofInt c, h]; decide⟩
  have ho : c.isTurnedOff = decide (c.raw.toInt < 0) := rfl
  have hi : c.isIndex = decide (1 ≤ c.raw.toInt ∧ c.raw.toInt ≤ 255) := rfl
  unfold colorClasses
  rw [hl, hb, he, ho, hi]
  generalize c.raw.toInt = i
  by_cases h1 : i < 0
  · simp [show ¬ i = 256 by omega, show ¬ i = 0 by omega, show ¬ i = 257 by omega, h1,
      show ¬ (1 ≤ i ∧ i ≤ 255) by omega, show ¬ 258 ≤ i by omega]
  by_cases h2 : i = 0
  · subst h2; decide
  by_cases h3 : i ≤ 255
  · simp [show ¬ i = 256 by omega, h2, show ¬ i = 257 by omega, h1,
      show 1 ≤ i by omega, h3, show ¬ 258 ≤ i by omega]
  by_cases h4 : i = 256
  · subst h4; decide
  by_cases h5 : i = 257
  · subst h5; decide
  simp [h4, h2, h5, h1, h3, show 258 ≤ i by omega]

/-- A colour made from an index between 1 and 255 has that index; index 0 is by-block. -/
theorem C30_index (i : Byte) :
    (Color.fromIndex i).index = if i = 0#8 then none else some i := by
  have key : ∀ n < 256, (Color.fromIndex (BitVec.ofNat 8 n)).index =
      if BitVec.ofNat 8 n = 0#8 then none else some (BitVec.ofNat 8 n) := by decide +kernel
  have := key i.toNat i.isLt
  simpa using this

/-- A colour with an index is the colour made from that index. -/
theorem C30_from_index (c : Color) (i : Byte) (h : c.index = some i) : Color.fromIndex i = c := by
  unfold Color.index at h
  split at h
  · rename_i hi
    simp only [Option.some.injEq] at h
    simp only [Color.isIndex, decide_eq_true_eq] at hi
    have hn : c.raw.toInt = (c.raw.toNat : Int) := by
      have h1 := BitVec.toInt_eq_toNat_cond c.raw
      have h2 := c.raw.isLt
      split at h1 <;> omega
    unfold Color.fromIndex
    cases c with
    | mk raw =>
      congr 1
      rw [← h]
      apply BitVec.eq_of_toNat_eq
      simp only [BitVec.toNat_setWidth] at hn hi ⊢
      omega
  · simp at h

/-- The constructors and setters establish their predicate. -/
theorem C30_setters : Color.byLayer.isByLayer = true ∧ Color.byBlock.isByBlock = true ∧
    Color.byEntity.isByEntity = true ∧ Color.off.isTurnedOff = true ∧
    ∀ i : Byte, i ≠ 0#8 → (Color.fromIndex i).isIndex = true := by
  refine ⟨by decide, by decide, by decide, by decide, fun i hi => ?_⟩
  have := C30_index i
  rw [if_neg hi] at this
  unfold Color.index at this
  split at this
  · assumption
  · simp at this

example : (Color.fromIndex 7#8).index = some 7#8 := by decide

/-! ## C31 Layer visibility is carried by the colour sign -/

/-- Writing a layer's colour and reading it back restores colour and on/off state, for every
positive colour value. -/
theorem C31_roundtrip (c : Color) (on : Bool) (h : 0 < c.raw.toInt) :
    ∃ v, writableColor c on = some v ∧ readColor v = some (on, c) := by
  obtain ⟨raw⟩ := c
  simp only at h
  have hlt := BitVec.toInt_lt (x := raw)
  have hneg : (-raw).toInt = -raw.toInt := by
    rw [BitVec.toInt_neg, Int.bmod_eq_of_le] <;> omega
  have h1 : absI16 raw = some raw := by
    unfold absI16; rw [if_neg (by omega), if_neg (by omega)]
  cases on with
  | true =>
    refine ⟨raw, by simp [writableColor, h1], ?_⟩
    simp [readColor, h1, Color.fromRaw]; omega
  | false =>
    refine ⟨-raw, by simp [writableColor, h1], ?_⟩
    have h2 : absI16 (-raw) = some raw := by
      unfold absI16; rw [hneg, if_neg (by omega), if_pos (by omega), BitVec.neg_neg]
    simp [readColor, h2, Color.fromRaw, hneg]; omega

/-- Negative ("turned off") colour values come back as their absolute value. -/
theorem C31_negative (c : Color) (on : Bool) (h : c.raw.toInt < 0) (hm : c.raw.toInt ≠ -32768) :
    ∃ v, writableColor c on = some v ∧ readColor v = some (on, ⟨-c.raw⟩) := by
  obtain ⟨raw⟩ := c
  simp only at h hm
  have hge := BitVec.le_toInt (x := raw)
  have hneg : (-raw).toInt = -raw.toInt := by
    rw [BitVec.toInt_neg, Int.bmod_eq_of_le] <;> omega
  have h1 : absI16 raw = some (-raw) := by
    unfold absI16; rw [if_neg hm, if_pos h]
  have h2 : absI16 (-raw) = some (-raw) := by
    unfold absI16; rw [hneg, if_neg (by omega), if_neg (by omega)]
  cases on with
  | true => exact ⟨-raw, by simp [writableColor, h1], by simp [readColor, h2, Color.fromRaw, hneg]; omega⟩
  | false => exact ⟨raw, by simp [writableColor, h1], by simp [readColor, h1, Color.fromRaw]; omega⟩

/-- The off state of a layer with colour 0 is lost. -/
theorem C31_zero_lost : writableColor ⟨0#16⟩ false = some 0#16 ∧
    readColor 0#16 = some (true, ⟨0#16⟩) := by decide

/-- The smallest value cannot be written or read without overflow. -/
theorem C31_overflow : writableColor ⟨BitVec.ofInt 16 (-32768)⟩ true = none ∧
    readColor (BitVec.ofInt 16 (-32768)) = none := by decide

/-- It is the only value that overflows. -/
theorem C31_overflow_only (v : I16) (h : readColor v = none) : v = BitVec.ofInt 16 (-32768) := by
  unfold readColor absI16 at h
  split at h
  · rename_i hv
    rw [← hv]; simp
  · simp at h

example : (0 : Int) < (Color.fromIndex 7#8).raw.toInt := by decide

/-! ## C32 Flag accessors are independent -/

/-- Setting a flag sets it, and clearing clears it. -/
theorem C32_set_get {w : Nat} (word mask : BitVec w) (val : Bool) (hm : mask ≠ 0) :
    getFlag (setFlag word mask val) mask = val := by
  cases val with
  | true =>
    have : (word ||| mask) &&& mask = mask := by
      ext i hi; simp only [BitVec.getElem_and, BitVec.getElem_or]; cases word[i] <;> cases mask[i] <;> rfl
    simp only [getFlag, setFlag, if_true, this]
    simpa using hm
  | false =>
    have : word &&& ~~~mask &&& mask = 0 := by
      ext i hi
      simp only [BitVec.getElem_and, BitVec.getElem_not]
      cases word[i] <;> cases mask[i] <;> simp
    simp [getFlag, setFlag, this]

/-- Setting one flag leaves every flag with a disjoint mask as it was. -/
theorem C32_independent {w : Nat} (word m m' : BitVec w) (val : Bool) (h : m &&& m' = 0) :
    getFlag (setFlag word m val) m' = getFlag word m' := by
  have hbit : ∀ (i : Nat) (hi : i < w), (m[i] && m'[i]) = false := by
    intro i hi
    rw [← BitVec.getElem_and, h]; simp
  have : setFlag word m val &&& m' = word &&& m' := by
    unfold setFlag
    ext i hi
    have := hbit i hi
    cases val <;> simp only [Bool.false_eq_true, if_true, if_false, BitVec.getElem_and,
        BitVec.getElem_or, BitVec.getElem_not] <;>
      cases hm : m[i] <;> cases hm' : m'[i] <;> cases word[i] <;> simp_all
  unfold getFlag
  rw [this]

/-- Setting a single-bit flag back restores the word. -/
theorem C32_restore {w : Nat} (word : BitVec w) (k : Nat) (val : Bool) :
    setFlag (setFlag word (BitVec.twoPow w k) val) (BitVec.twoPow w k)
      (getFlag word (BitVec.twoPow w k)) = word := by
  by_cases hk : k < w
  · have hz : getFlag word (BitVec.twoPow w k) = word.getLsbD k := by
      unfold getFlag
      rw [BitVec.and_twoPow]
      cases h : word.getLsbD k with
      | true =>
        have : BitVec.twoPow w k ≠ 0 := by
          intro h0
          have := congrArg (fun b => b.getLsbD k) h0
          simp [BitVec.getLsbD_twoPow, hk] at this
        simpa using this
      | false => simp
    rw [hz]
    unfold setFlag
    apply BitVec.eq_of_getLsbD_eq
    intro i hi
    by_cases hki : k = i
    · subst hki
      cases hwk : word.getLsbD k <;> cases val <;> simp [BitVec.getLsbD_twoPow, hwk, hi]
    · cases hwk : word.getLsbD k <;> cases val <;>
        simp [BitVec.getLsbD_twoPow, hi, show ¬ i = k from fun h => hki h.symm]
  · have : BitVec.twoPow w k = 0#w := by
      apply BitVec.eq_of_getLsbD_eq; intro j hj; simp [BitVec.getLsbD_twoPow]; omega
    rw [this]
    unfold setFlag getFlag
    cases val <;> simp

/-- In every flag word of the specification and of the hand-written accessors each mask is one
bit below bit 31 and the masks are pairwise different. -/
theorem C32_masks : ∀ fw ∈ flagWords,
    (∀ f ∈ fw.2, ∃ k < 31, f.2 = 2 ^ k) ∧ (fw.2.map Prod.snd).Nodup := by decide +kernel

/-- So within one flag word, setting one flag never changes another one. -/
theorem C32_word (fw : String × List (String × Nat)) (h : fw ∈ flagWords)
    (f g : String × Nat) (hf : f ∈ fw.2) (hg : g ∈ fw.2) (hfg : f.2 ≠ g.2) (word : I32)
    (val : Bool) :
    getFlag (setFlag word (BitVec.ofNat 32 f.2) val) (BitVec.ofNat 32 f.2) = val ∧
    getFlag (setFlag word (BitVec.ofNat 32 f.2) val) (BitVec.ofNat 32 g.2) =
      getFlag word (BitVec.ofNat 32 g.2) := by
  obtain ⟨kf, hkf, ef⟩ := (C32_masks fw h).1 f hf
  obtain ⟨kg, hkg, eg⟩ := (C32_masks fw h).1 g hg
  have key : ∀ k < 31, BitVec.ofNat 32 (2 ^ k) ≠ 0 := by decide +kernel
  have key2 : ∀ k < 31, ∀ l < 31, k ≠ l →
      BitVec.ofNat 32 (2 ^ k) &&& BitVec.ofNat 32 (2 ^ l) = 0 := by decide +kernel
  rw [ef, eg]
  refine ⟨C32_set_get _ _ _ (key kf hkf), C32_independent _ _ _ _ (key2 kf hkf kg hkg ?_)⟩
  intro e
  rw [ef, eg, e] at hfg
  exact hfg rfl

example : flagWords.length = 26 := by decide
example : getFlag (setFlag 5#32 2#32 true) 4#32 = true := by decide

/-! ## C38 Dimension type word -/

/-- Packing and unpacking restores kind and flags. -/
theorem C38_roundtrip (d : DimWord) : DimWord.unpack d.pack = d := by
  obtain ⟨t, a, b, c⟩ := d
  cases t <;> cases a <;> cases b <;> cases c <;> decide

/-- Unpacking an arbitrary word takes the four low bits as kind (unknown kinds become aligned)
and bits 5, 6 and 7 as flags. -/
theorem C38_unpack (w : I16) :
    (DimWord.unpack w).onlyThisBlock = w.getLsbD 5 ∧
    (DimWord.unpack w).ordinateX = w.getLsbD 6 ∧
    (DimWord.unpack w).userLocation = w.getLsbD 7 ∧
    (DimWord.unpack w).type.num = if w.toNat % 16 ≤ 6 then w.toNat % 16 else 1 := by
  have hb : ∀ k < 16, (w &&& BitVec.twoPow 16 k = BitVec.twoPow 16 k) ↔ w.getLsbD k = true := by
    intro k hk
    rw [BitVec.and_twoPow]
    split
    · rename_i h; simp [h]
    · rename_i h
      simp only [h]
      constructor
      · intro h0
        have := congrArg (fun b => b.getLsbD k) h0
        simp [BitVec.getLsbD_twoPow, hk] at this
      · simp
  have h5 := hb 5 (by omega)
  have h6 := hb 6 (by omega)
  have h7 := hb 7 (by omega)
  refine ⟨?_, ?_, ?_, ?_⟩
  · simp only [DimWord.unpack]
    rw [show (32#16 : I16) = BitVec.twoPow 16 5 by decide]
    cases h : w.getLsbD 5 <;> simp only [h] at h5 <;> simp [h5]
  · simp only [DimWord.unpack]
    rw [show (64#16 : I16) = BitVec.twoPow 16 6 by decide]
    cases h : w.getLsbD 6 <;> simp only [h] at h6 <;> simp [h6]
  · simp only [DimWord.unpack]
    rw [show (128#16 : I16) = BitVec.twoPow 16 7 by decide]
    cases h : w.getLsbD 7 <;> simp only [h] at h7 <;> simp [h7]
  · have hn : (w &&& 0x0F#16).toNat = w.toNat % 16 := by
      rw [BitVec.toNat_and]
      exact Nat.and_two_pow_sub_one_eq_mod w.toNat 4
    have hi : (w &&& 0x0F#16).toInt = ((w.toNat % 16 : Nat) : Int) := by
      rw [BitVec.toInt_eq_toNat_cond, hn, if_pos (by omega)]
    simp only [DimWord.unpack, hi]
    have : w.toNat % 16 < 16 := Nat.mod_lt _ (by omega)
    generalize w.toNat % 16 = n at this
    have key : ∀ n : Nat, n < 16 →
        (DimensionType.ofNum (n : Int)).num = if n ≤ 6 then n else 1 := by decide
    exact key n this

example : DimWord.unpack 0xA5#16 = ⟨.angularThreePoint, true, false, true⟩ := by decide

/-! ## C39 Transformation matrix layout -/

/-- The sixteen values restore the matrix, also when followed by further values. -/
theorem C39_roundtrip (m : Matrix) (extra : List F64) :
    Matrix.fromVec (m.values ++ extra) = m := by
  cases m; rfl

/-- A short list fills the leading cells and leaves the others zero. -/
theorem C39_short (v : List F64) (i : Nat) (hi : i < 16) :
    (Matrix.fromVec v).values[i]? = some (if h : i < v.length then v[i] else F64.zero) := by
  have : (Matrix.fromVec v).values[i]? = some (valueOrDefault v i) := by
    have key : ∀ i < 16, (Matrix.fromVec v).values[i]? = some (valueOrDefault v i) := by
      intro i hi
      rcases (by omega : i = 0 ∨ i = 1 ∨ i = 2 ∨ i = 3 ∨ i = 4 ∨ i = 5 ∨ i = 6 ∨ i = 7 ∨ i = 8 ∨
        i = 9 ∨ i = 10 ∨ i = 11 ∨ i = 12 ∨ i = 13 ∨ i = 14 ∨ i = 15) with
        h | h | h | h | h | h | h | h | h | h | h | h | h | h | h | h <;> subst h <;> rfl
    exact key i hi
  rw [this]
  unfold valueOrDefault
  split
  · rename_i h
    rw [Option.some.injEq]
    obtain ⟨h1, h2⟩ := List.getElem?_eq_some_iff.mp h
    rw [dif_pos h1, h2]
  · rename_i h
    rw [Option.some.injEq, dif_neg]
    rw [List.getElem?_eq_none_iff] at h
    omega

/-- Two matrices with the same values are the same. -/
theorem C39_injective (m n : Matrix) (h : m.values = n.values) : m = n := by
  have h1 := C39_roundtrip m []
  rw [h, C39_roundtrip] at h1
  exact h1.symm

/-- The twelve values of a spatial filter's matrix are not read back in the order they are
written: the matrix is transposed, and the last row lost. -/
theorem C39_filter_transposed (m : Matrix) : Matrix.from4x3 m.values4x3 =
    some { m11 := m.m11, m12 := m.m21, m13 := m.m31, m14 := .zero
           m21 := m.m12, m22 := m.m22, m23 := m.m32, m24 := .zero
           m31 := m.m13, m32 := m.m23, m33 := m.m33, m34 := .zero
           m41 := m.m14, m42 := m.m24, m43 := m.m34, m44 := .zero } := rfl

/-- Not even the identity matrix survives in a spatial filter. -/
theorem C39_filter_identity_lost :
    Matrix.from4x3 Matrix.identity.values4x3 ≠ some Matrix.identity := by decide

/-! ## C40 Point lists are recombined -/

/-- Splitting points into coordinate lists and recombining restores the list. -/
theorem C40_roundtrip3 (ps : List Point) :
    combinePoints3 (ps.map Point.x) (ps.map Point.y) (ps.map Point.z) = ps := by
  induction ps with
  | nil => rfl
  | cons p ps ih => simpa [combinePoints3] using ih

/-- The same for flat points (z is zero). -/
theorem C40_roundtrip2 (ps : List Point) (h : ∀ p ∈ ps, p.z = F64.zero) :
    combinePoints2 (ps.map Point.x) (ps.map Point.y) = ps := by
  induction ps with
  | nil => rfl
  | cons p ps ih =>
    have hp := h p List.mem_cons_self
    have := ih fun q hq => h q (List.mem_cons_of_mem _ hq)
    simp only [combinePoints2, List.map_cons, List.zip_cons_cons] at this ⊢
    rw [this, ← hp]

/-- Unequal lists give one point for every index present in all of them; surplus coordinates
at the end are dropped. -/
theorem C40_unequal (xs ys zs : List F64) (i : Nat) :
    (combinePoints3 xs ys zs).length = min xs.length (min ys.length zs.length) ∧
    (∀ p, (combinePoints3 xs ys zs)[i]? = some p ↔
      xs[i]? = some p.x ∧ ys[i]? = some p.y ∧ zs[i]? = some p.z) := by
  constructor
  · simp [combinePoints3]
  · intro p
    obtain ⟨x, y, z⟩ := p
    simp only [combinePoints3, List.getElem?_map, Option.map_eq_some_iff,
      List.getElem?_zip_eq_some, Prod.exists, Point.mk.injEq]
    constructor
    · rintro ⟨a, b, c, ⟨h1, h2, h3⟩, rfl, rfl, rfl⟩
      exact ⟨h1, h2, h3⟩
    · rintro ⟨h1, h2, h3⟩
      exact ⟨x, y, z, ⟨h1, h2, h3⟩, rfl, rfl, rfl⟩

example : combinePoints3 [⟨1⟩, ⟨2⟩] [⟨3⟩, ⟨4⟩] [⟨5⟩] = [⟨⟨1⟩, ⟨3⟩, ⟨5⟩⟩] := by decide

/-! ## C43 Proxy entity version word -/

/-- On a fresh (zero) word the format version is stored in the low half. -/
theorem C43_set_fresh (v : I32) (h : v.toNat < 2 ^ 16) : proxyFormat (setProxyFormat 0 v) = v := by
  apply BitVec.eq_of_toNat_eq
  simp only [proxyFormat, setProxyFormat, BitVec.toNat_and, BitVec.toNat_or]
  have : (v.toNat &&& 65535) = v.toNat := by
    rw [Nat.and_two_pow_sub_one_eq_mod v.toNat 16]; omega
  simp [this]

/-- Setting the format version again keeps the old bits: setting 2 after 1 gives 3. -/
theorem C43_set_not_overwriting :
    proxyFormat (setProxyFormat (setProxyFormat 0 1#32) 2#32) = 3#32 := by decide

/-- The two accessors overlap: setting the maintenance version changes the format version. -/
theorem C43_overlap : ∃ w, setProxyRelease 0 1#32 = some w ∧ proxyFormat w = 16#32 := by
  exact ⟨16#32, by decide, by decide⟩

end Dxf
