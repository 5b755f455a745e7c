import Verif.Lemmas.TextCodec

/-! Lemmas about the binary code-pair format. -/

namespace Dxf

theorem leBytes_length (n v : Nat) : (leBytes n v).length = n := by
  induction n generalizing v with
  | zero => rfl
  | succ n ih => simp [leBytes, ih]

theorem leVal_leBytes (n v : Nat) : leVal (leBytes n v) = v % 256 ^ n := by
  induction n generalizing v with
  | zero => simp [leBytes, leVal, Nat.mod_one]
  | succ n ih =>
    simp only [leBytes, leVal, ih, byte, BitVec.toNat_ofNat]
    rw [show (2 : Nat) ^ 8 = 256 by norm_num, Nat.pow_succ, Nat.mul_comm (256 ^ n) 256,
      Nat.mod_mul]

theorem readBytes_append {n : Nat} {a rest : List Byte} (h : a.length = n) :
    readBytes n (a ++ rest) = (.ok a, rest) := by
  unfold readBytes
  rw [if_pos (by rw [List.length_append]; omega)]
  subst h
  simp

theorem readStringBin_written (s : Str) (h : ∀ c ∈ s, 0 < c.toNat ∧ c.toNat < 128)
    (rest : List Byte) :
    readStringBin (utf8Encode s ++ byte 0 :: rest) = (.ok s, rest) := by
  induction s with
  | nil =>
    rw [utf8Encode_nil, List.nil_append, readStringBin, if_pos (by decide)]
  | cons c cs ih =>
    have hc := h c List.mem_cons_self
    rw [utf8Encode_cons, utf8EncodeChar_ascii hc.2, List.singleton_append, List.cons_append,
      readStringBin, if_neg]
    · rw [ih (fun d hd => h d (List.mem_cons_of_mem _ hd)), byte_toNat (by omega), Char.ofNat_toNat]
      rfl
    · intro hb
      have := congrArg BitVec.toNat hb
      rw [byte_toNat (by omega)] at this
      have e : (0#8).toNat = 0 := rfl
      omega

theorem escapeControl_ascii {s : Str} (h : ∀ c ∈ s, c.toNat < 128) :
    ∀ c ∈ escapeControl s, 0 < c.toNat ∧ c.toNat < 128 := by
  intro c hc
  refine ⟨by have := escapeControl_ge s c hc; omega, ?_⟩
  rcases Nat.lt_or_ge c.toNat 96 with h1 | h1
  · omega
  · exact h c (escapeControl_mem_high s c hc h1)

theorem readWord_written (n v : Nat) (f : Nat → CodePairValue) (rest : List Byte)
    (det wide : Bool) (off : Nat) :
    BinIter.readWord ⟨leBytes n v ++ rest, det, wide, off⟩ n f =
      (.ok (f (v % 256 ^ n), n), ⟨rest, det, wide, off⟩) := by
  unfold BinIter.readWord
  simp only
  rw [readBytes_append (leBytes_length n v)]
  simp only [Except.map, leVal_leBytes]

/-- Reading a value in the binary format (after the width is known, or when the value
does not trigger its detection). -/
theorem readValue_bin {wide : Bool} {v : CodePairValue} {code : Int} (hv : BinOk wide v)
    (det : Bool) (hd : det = true ∨ code ≠ 0 ∨ (∀ s, v = .str s → s ≠ []))
    (rest : List Byte) (off : Nat) :
    ∃ n, BinIter.readValue ⟨binValueBytes wide v ++ rest, det, wide, off⟩ code v.type =
      (.ok (v, n), ⟨rest, det, wide, off⟩) := by
  cases v with
  | boolean s =>
    have hs := s.isLt
    cases wide with
    | true =>
      have hv := hv rfl
      refine ⟨1, ?_⟩
      simp only [BinIter.readValue, CodePairValue.type, binValueBytes, if_true]
      have := readWord_written 1 s.toNat (fun n => .boolean (BitVec.ofNat 16 n)) rest det true off
      simp only [leBytes] at this
      rw [this, Nat.mod_eq_of_lt (by omega)]
      simp
    | false =>
      refine ⟨2, ?_⟩
      simp only [BinIter.readValue, CodePairValue.type, binValueBytes, Bool.false_eq_true, if_false]
      rw [readWord_written, Nat.mod_eq_of_lt (by omega)]
      simp
  | integer i =>
    refine ⟨4, ?_⟩
    have hs := i.isLt
    simp only [BinIter.readValue, CodePairValue.type, binValueBytes]
    rw [readWord_written, Nat.mod_eq_of_lt (by omega)]
    simp
  | long l =>
    refine ⟨8, ?_⟩
    have hs := l.isLt
    simp only [BinIter.readValue, CodePairValue.type, binValueBytes]
    rw [readWord_written, Nat.mod_eq_of_lt (by omega)]
    simp
  | short s =>
    refine ⟨2, ?_⟩
    have hs := s.isLt
    simp only [BinIter.readValue, CodePairValue.type, binValueBytes]
    rw [readWord_written, Nat.mod_eq_of_lt (by omega)]
    simp
  | double d =>
    refine ⟨8, ?_⟩
    have hs := d.bits.isLt
    simp only [BinIter.readValue, CodePairValue.type, binValueBytes]
    rw [readWord_written, Nat.mod_eq_of_lt (by omega)]
    simp
  | str s =>
    refine ⟨strLen (escapeControl s) + 1, ?_⟩
    simp only [BinIter.readValue, CodePairValue.type, binValueBytes, BinIter.readStr]
    rw [List.append_assoc, List.singleton_append, readStringBin_written _ (escapeControl_ascii hv)]
    simp only
    rw [if_neg, unescape_escape]
    intro h
    simp only [Bool.and_eq_true, Bool.not_eq_true', decide_eq_true_eq, List.isEmpty_iff] at h
    obtain ⟨⟨h1, h2⟩, h3⟩ := h
    rcases hd with hd | hd | hd
    · rw [h1] at hd; exact absurd hd (by simp)
    · exact hd h2
    · apply hd s rfl
      have := unescape_escape s
      rw [h3] at this
      exact this.symm
  | binary b =>
    refine ⟨b.length + 1, ?_⟩
    simp only [BinIter.readValue, CodePairValue.type, binValueBytes, BinIter.readChunk]
    have h1 : readBytes 1 (byte b.length :: b ++ rest) = (.ok [byte b.length], b ++ rest) :=
      readBytes_append (a := [byte b.length]) rfl
    rw [h1]
    have hl : leVal [byte b.length] = b.length := by
      simp only [leVal, byte_toNat hv]; omega
    simp only [hl, readBytes_append rfl]
    rfl

theorem readCode_wide {c : Int} (h0 : 0 ≤ c) (h1 : c ≤ 1071) (rest : List Byte) (det : Bool)
    (off : Nat) :
    BinIter.readCode ⟨binCodeBytes true c ++ rest, det, true, off⟩ =
      (some (.ok c), ⟨rest, det, true, off + 2⟩) := by
  obtain ⟨n, rfl⟩ := Int.eq_ofNat_of_zero_le h0
  have hn : n ≤ 1071 := by omega
  have e : (BitVec.ofInt 16 (n : Int)).toNat = n := by
    rw [BitVec.ofInt_natCast, BitVec.toNat_ofNat]; omega
  unfold binCodeBytes
  simp only [if_true, e, leBytes, List.cons_append, List.nil_append, BinIter.readCode]
  have h1 : readBytes 1 (byte (n / 256) :: rest) = (.ok [byte (n / 256)], rest) :=
    readBytes_append (a := [byte (n / 256)]) rfl
  rw [h1]
  simp only [leVal, byte, BitVec.toNat_ofNat, Prod.mk.injEq, Option.some.injEq, Except.ok.injEq,
    and_true]
  omega

theorem readCode_narrow {c : Int} (h0 : 0 ≤ c) (h1 : c ≤ 1071) (rest : List Byte) (det : Bool)
    (off : Nat) :
    ∃ off', BinIter.readCode ⟨binCodeBytes false c ++ rest, det, false, off⟩ =
      (some (.ok c), ⟨rest, det, false, off'⟩) := by
  obtain ⟨n, rfl⟩ := Int.eq_ofNat_of_zero_le h0
  have hn : n ≤ 1071 := by omega
  have e : (BitVec.ofInt 16 (n : Int)).toNat = n := by
    rw [BitVec.ofInt_natCast, BitVec.toNat_ofNat]; omega
  unfold binCodeBytes
  simp only [Bool.false_eq_true, if_false, e]
  split
  · refine ⟨off + 1 + 2, ?_⟩
    simp only [List.cons_append, BinIter.readCode, Bool.false_eq_true, if_false]
    rw [if_pos (by decide), readBytes_append (leBytes_length 2 n)]
    simp only [leVal_leBytes, Prod.mk.injEq, Option.some.injEq, Except.ok.injEq, and_true]
    have en : (BitVec.ofNat 16 n).toNat = n := by rw [BitVec.toNat_ofNat]; omega
    rw [Nat.mod_eq_of_lt (by omega), BitVec.toInt_eq_toNat_of_lt (by rw [en]; omega), en]
  · refine ⟨off + 1, ?_⟩
    have hlt : n < 255 := by omega
    have eb : (BitVec.ofInt 8 (n : Int)).toNat = n := by
      rw [BitVec.ofInt_natCast, BitVec.toNat_ofNat]; omega
    simp only [List.cons_append, List.nil_append, BinIter.readCode, Bool.false_eq_true, if_false]
    rw [if_neg]
    · simp only [eb]
    · intro hb
      have := congrArg BitVec.toNat hb
      rw [eb] at this
      have e : (255#8).toNat = 255 := rfl
      omega

theorem readCode_bin {c : Int} (h0 : 0 ≤ c) (h1 : c ≤ 1071) (wide : Bool) (rest : List Byte)
    (det : Bool) (off : Nat) :
    ∃ off', BinIter.readCode ⟨binCodeBytes wide c ++ rest, det, wide, off⟩ =
      (some (.ok c), ⟨rest, det, wide, off'⟩) := by
  cases wide
  · exact readCode_narrow h0 h1 rest det off
  · exact ⟨_, readCode_wide h0 h1 rest det off⟩

theorem next_bin {wide : Bool} {p : CodePair} (hwt : p.WellTyped) (hv : BinOk wide p.value)
    (det : Bool) (hd : det = true ∨ p.code ≠ 0 ∨ (∀ s, p.value = .str s → s ≠ []))
    (rest : List Byte) (off : Nat) :
    ∃ off', BinIter.next ⟨writeBinPair wide p ++ rest, det, wide, off⟩ =
      (some (.ok ⟨p.code, p.value, off'⟩), ⟨rest, true, wide, off'⟩) := by
  obtain ⟨h0, h1⟩ := expected_range hwt
  obtain ⟨o1, hc⟩ := readCode_bin h0 h1 wide (binValueBytes wide p.value ++ rest) det off
  obtain ⟨n, hval⟩ := readValue_bin (code := p.code) hv det hd rest o1
  refine ⟨o1 + n, ?_⟩
  unfold BinIter.next writeBinPair
  simp only [List.append_assoc, hc]
  rw [hwt]
  simp only [hval]

/-- The first pair of a wide file: code 0 makes the reader notice the width. -/
theorem next_bin_first {p : CodePair} {s : Str} (hc0 : p.code = 0) (hs : p.value = .str s)
    (hv : BinOk true p.value) (rest : List Byte) (off : Nat) :
    ∃ off', BinIter.next ⟨writeBinPair true p ++ rest, false, false, off⟩ =
      (some (.ok ⟨p.code, p.value, off'⟩), ⟨rest, true, true, off'⟩) := by
  rw [hs] at hv
  refine ⟨off + 1 + 1 + (strLen (escapeControl s) + 1), ?_⟩
  have e : writeBinPair true p ++ rest =
      0#8 :: 0#8 :: (utf8Encode (escapeControl s) ++ byte 0 :: rest) := by
    unfold writeBinPair
    rw [hc0, hs]
    simp only [binValueBytes, binCodeBytes, if_true, List.append_assoc, List.singleton_append]
    rfl
  rw [e]
  have hty : ExpectedType.new ((0#8).toNat : Int) = some .str := by decide
  simp only [BinIter.next, BinIter.readCode, Bool.false_eq_true, if_false]
  rw [if_neg (by decide)]
  simp only [hty, BinIter.readValue, BinIter.readStr]
  rw [readStringBin, if_pos (by decide)]
  simp only
  rw [if_pos (by decide), readStringBin_written _ (escapeControl_ascii hv)]
  simp only [unescape_escape, hc0, hs]
  rfl

theorem writeBinPair_pos (wide : Bool) (p : CodePair) : 0 < (writeBinPair wide p).length := by
  unfold writeBinPair binCodeBytes
  rw [List.length_append]
  cases wide
  · simp only [Bool.false_eq_true, if_false]; split <;> simp <;> omega
  · simp [leBytes]

theorem items_bin {wide : Bool} (ps : List CodePair)
    (hwt : ∀ p ∈ ps, p.WellTyped) (hv : ∀ p ∈ ps, BinOk wide p.value)
    (fuel : Nat) (hf : ps.length < fuel) (off : Nat) :
    ∃ qs, BinIter.items fuel ⟨ps.flatMap (writeBinPair wide), true, wide, off⟩ =
      qs.map (fun p => some (.ok p)) ∧ List.Forall₂ EqPair ps qs := by
  induction ps generalizing fuel off with
  | nil =>
    cases fuel with
    | zero => simp at hf
    | succ f => exact ⟨[], by simp [BinIter.items], .nil⟩
  | cons p ps ih =>
    cases fuel with
    | zero => simp at hf
    | succ f =>
      obtain ⟨o, ho⟩ := next_bin (hwt p List.mem_cons_self) (hv p List.mem_cons_self) true
        (Or.inl rfl) (ps.flatMap (writeBinPair wide)) off
      obtain ⟨qs, h1, h2⟩ := ih (fun q hq => hwt q (List.mem_cons_of_mem _ hq))
        (fun q hq => hv q (List.mem_cons_of_mem _ hq)) f (by simp at hf; omega) o
      refine ⟨⟨p.code, p.value, o⟩ :: qs, ?_, .cons ⟨rfl, rfl⟩ h2⟩
      rw [List.flatMap_cons, BinIter.items, ho]
      have hne : (writeBinPair wide p ++ ps.flatMap (writeBinPair wide)).isEmpty = false := by
        rw [List.isEmpty_eq_false_iff]
        intro h
        have h1 := congrArg List.length h
        have h2 := writeBinPair_pos wide p
        rw [List.length_append, List.length_nil] at h1
        omega
      simp only [hne, Bool.false_eq_true, if_false, List.map_cons, h1]

theorem length_le_writeBin (wide : Bool) (ps : List CodePair) :
    ps.length ≤ (ps.flatMap (writeBinPair wide)).length := by
  induction ps with
  | nil => simp
  | cons p ps ih =>
    rw [List.flatMap_cons, List.length_append, List.length_cons]
    have := writeBinPair_pos wide p
    omega

theorem all_bin {wide : Bool} (p : CodePair) (ps : List CodePair)
    (hwt : ∀ q ∈ p :: ps, q.WellTyped) (hv : ∀ q ∈ p :: ps, BinOk wide q.value)
    (hfirst : FirstOk wide p) (off : Nat) :
    ∃ qs, BinIter.all ⟨(p :: ps).flatMap (writeBinPair wide), false, false, off⟩ =
      qs.map (fun p => some (.ok p)) ∧ List.Forall₂ EqPair (p :: ps) qs := by
  have hp := hwt p List.mem_cons_self
  have hvp := hv p List.mem_cons_self
  have hnext : ∃ off', BinIter.next ⟨writeBinPair wide p ++ ps.flatMap (writeBinPair wide), false,
      false, off⟩ = (some (.ok ⟨p.code, p.value, off'⟩),
        ⟨ps.flatMap (writeBinPair wide), true, wide, off'⟩) := by
    cases wide with
    | true =>
      have hc0 : p.code = 0 := hfirst
      have : ∃ s, p.value = .str s := by
        unfold CodePair.WellTyped at hp
        rw [hc0] at hp
        have e : ExpectedType.new 0 = some .str := by decide
        rw [e] at hp
        cases hval : p.value <;> rw [hval] at hp <;> simp [CodePairValue.type] at hp ⊢
      obtain ⟨s, hs⟩ := this
      exact next_bin_first hc0 hs hvp _ off
    | false =>
      apply next_bin hp hvp false
      right
      rcases (hfirst : p.code ≠ 0 ∨ p.value ≠ .str []) with h | h
      · exact Or.inl h
      · right; intro s hs hn; subst hn; exact h hs
  obtain ⟨o, ho⟩ := hnext
  obtain ⟨qs, h1, h2⟩ := items_bin ps (fun q hq => hwt q (List.mem_cons_of_mem _ hq))
    (fun q hq => hv q (List.mem_cons_of_mem _ hq))
    ((writeBinPair wide p ++ ps.flatMap (writeBinPair wide)).length) (by
      have := writeBinPair_pos wide p
      have := length_le_writeBin wide ps
      rw [List.length_append]; omega) o
  refine ⟨⟨p.code, p.value, o⟩ :: qs, ?_, .cons ⟨rfl, rfl⟩ h2⟩
  rw [List.flatMap_cons]
  unfold BinIter.all
  rw [BinIter.items, ho]
  have hne : (writeBinPair wide p ++ ps.flatMap (writeBinPair wide)).isEmpty = false := by
    rw [List.isEmpty_eq_false_iff]
    intro h
    have h1 := congrArg List.length h
    have h2 := writeBinPair_pos wide p
    rw [List.length_append, List.length_nil] at h1
    omega
  simp only [hne, Bool.false_eq_true, if_false, List.map_cons, h1]

theorem fileItems_bin (wide : Bool) (enc : Enc) (ps : List CodePair) :
    fileItems enc (writeBin wide ps) =
      .ok (some (BinIter.all ⟨ps.flatMap (writeBinPair wide), false, false, 20⟩,
        BinIter.all ⟨ps.flatMap (writeBinPair wide), false, false, 20⟩)) := by
  unfold fileItems writeBin binPrelude
  have e : utf8Encode (str!"AutoCAD Binary DXF\r\n") ++ [byte 26, byte 0] ++
      ps.flatMap (writeBinPair wide) = utf8Encode (str!"AutoCAD Binary DXF" ++ str!"\r\n") ++
      (byte 26 :: byte 0 :: ps.flatMap (writeBinPair wide)) := by simp
  rw [e, readLine_written true enc (str!"AutoCAD Binary DXF") _ (by decide) (by decide)
    (decode_ascii _ (by decide))]
  simp only
  rw [if_neg (by decide)]
  unfold newPairIter
  rw [if_pos rfl]
  simp only
  rw [if_neg (by decide), if_neg (by decide)]
  rfl

end Dxf
