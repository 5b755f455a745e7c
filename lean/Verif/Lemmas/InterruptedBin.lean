import Verif.Lemmas.InterruptedText
import Verif.Lemmas.BinCodec

/-! Binary files of which only the first bytes have been written. -/

namespace Dxf

theorem readBytes_short {n : Nat} {l : List Byte} (h : l.length < n) :
    readBytes n l = (.error .unexpectedEndOfInput, []) := by
  unfold readBytes
  rw [if_neg (by omega)]

theorem readStringBin_open {l : List Byte} (h : 0#8 ∉ l) :
    readStringBin l = (.error .unexpectedEndOfInput, []) := by
  induction l with
  | nil => rfl
  | cons b l ih =>
    rw [readStringBin, if_neg fun hb => h (by simp [hb]),
      ih fun hm => h (List.mem_cons_of_mem _ hm)]
    rfl

/-- A proper part of a list that ends with a certain element. -/
theorem proper_prefix {α : Type} {l a : List α} {x : α} (h : l <+: a ++ [x])
    (hl : l.length < (a ++ [x]).length) : l <+: a := by
  refine List.prefix_of_prefix_length_le h (List.prefix_append _ _) ?_
  simp only [List.length_append, List.length_singleton] at hl
  omega

/-- A value of which only the first bytes are there. -/
theorem readValue_cut {wide : Bool} {v : CodePairValue} (hv : BinOk wide v) {l : List Byte}
    (hl : l <+: binValueBytes wide v) (hlt : l.length < (binValueBytes wide v).length) (det : Bool)
    (code : Int) (off : Nat) :
    ∃ e det' wide' off', BinIter.readValue ⟨l, det, wide, off⟩ code v.type =
      (.error e, ⟨[], det', wide', off'⟩) := by
  have word : ∀ n f, l.length < n → BinIter.readWord ⟨l, det, wide, off⟩ n f =
      (.error .unexpectedEndOfInput, ⟨[], det, wide, off⟩) := by
    intro n f h
    unfold BinIter.readWord
    simp only
    rw [readBytes_short h]
    rfl
  cases v with
  | boolean s =>
    refine ⟨.unexpectedEndOfInput, det, wide, off, ?_⟩
    simp only [CodePairValue.type, BinIter.readValue]
    cases wide with
    | true =>
      rw [if_pos rfl]
      exact word 1 _ hlt
    | false =>
      rw [if_neg (by decide)]
      exact word 2 _ hlt
  | integer i =>
    refine ⟨.unexpectedEndOfInput, det, wide, off, ?_⟩
    simp only [CodePairValue.type, BinIter.readValue]
    exact word 4 _ (by simpa [binValueBytes, leBytes_length] using hlt)
  | long i =>
    refine ⟨.unexpectedEndOfInput, det, wide, off, ?_⟩
    simp only [CodePairValue.type, BinIter.readValue]
    exact word 8 _ (by simpa [binValueBytes, leBytes_length] using hlt)
  | short i =>
    refine ⟨.unexpectedEndOfInput, det, wide, off, ?_⟩
    simp only [CodePairValue.type, BinIter.readValue]
    exact word 2 _ (by simpa [binValueBytes, leBytes_length] using hlt)
  | double i =>
    refine ⟨.unexpectedEndOfInput, det, wide, off, ?_⟩
    simp only [CodePairValue.type, BinIter.readValue]
    exact word 8 _ (by simpa [binValueBytes, leBytes_length] using hlt)
  | str s =>
    have hno : 0#8 ∉ l := by
      intro hm
      have hm := (proper_prefix hl hlt).subset hm
      have hasc := escapeControl_ascii hv
      rw [utf8Encode_ascii fun c hc => (hasc c hc).2] at hm
      obtain ⟨c, hc, hb⟩ := List.mem_map.mp hm
      have := congrArg BitVec.toNat hb
      obtain ⟨h1, h2⟩ := hasc c hc
      rw [byte_toNat (by omega)] at this
      simp at this
      omega
    refine ⟨.unexpectedEndOfInput, det, wide, off, ?_⟩
    simp only [CodePairValue.type, BinIter.readValue, BinIter.readStr]
    rw [readStringBin_open hno]
  | binary b =>
    refine ⟨.unexpectedEndOfInput, det, wide, off, ?_⟩
    simp only [CodePairValue.type, BinIter.readValue, BinIter.readChunk]
    cases l with
    | nil => rfl
    | cons x l =>
      have hx : x = byte b.length := by
        obtain ⟨t, ht⟩ := hl
        simp only [binValueBytes, List.cons_append, List.cons.injEq] at ht
        exact ht.1
      have h1 : readBytes 1 (x :: l) = (.ok [x], l) := readBytes_append (a := [x]) rfl
      rw [h1]
      have hlen : leVal [x] = b.length := by
        rw [hx]
        simp only [leVal, byte_toNat hv]
        omega
      simp only [hlen]
      rw [readBytes_short (by simpa [binValueBytes] using hlt)]
      rfl

/-- A pair of which only the first bytes are there. -/
theorem next_cut {wide : Bool} {p : CodePair} (hwt : p.WellTyped) (hv : BinOk wide p.value)
    {rest : List Byte} (hr : rest <+: writeBinPair wide p)
    (hlt : rest.length < (writeBinPair wide p).length) (hne : rest ≠ []) (det : Bool) (off : Nat) :
    ∃ e t, BinIter.next ⟨rest, det, wide, off⟩ = (some (.error e), t) ∧ t.bytes = [] := by
  obtain ⟨h0, h1⟩ := expected_range hwt
  unfold writeBinPair at hr hlt
  rw [List.length_append] at hlt
  rcases Nat.lt_or_ge rest.length (binCodeBytes wide p.code).length with h | h
  · have hpre : rest <+: binCodeBytes wide p.code :=
      List.prefix_of_prefix_length_le hr (List.prefix_append _ _) (Nat.le_of_lt h)
    obtain ⟨b, bs, rfl⟩ := List.exists_cons_of_ne_nil hne
    cases wide with
    | true =>
      simp only [binCodeBytes, if_true, leBytes_length, List.length_cons] at h
      obtain rfl : bs = [] := List.length_eq_zero_iff.mp (by omega)
      exact ⟨_, _, rfl, rfl⟩
    | false =>
      simp only [binCodeBytes, Bool.false_eq_true, if_false] at h hpre
      by_cases hc : p.code ≥ 255
      · rw [if_pos hc] at h hpre
        simp only [List.length_cons, leBytes_length] at h
        obtain ⟨t, ht⟩ := hpre
        simp only [List.cons_append, List.cons.injEq] at ht
        obtain rfl : b = byte 255 := ht.1
        refine ⟨.unexpectedEndOfInput, ⟨[], det, false, off + 1⟩, ?_, rfl⟩
        unfold BinIter.next BinIter.readCode
        simp only [Bool.false_eq_true, if_false]
        rw [if_pos (by decide), readBytes_short (by omega)]
      · rw [if_neg hc] at h
        simp only [List.length_cons, List.length_nil] at h
        omega
  · obtain ⟨l, rfl⟩ : ∃ l, rest = binCodeBytes wide p.code ++ l := by
      have := List.prefix_of_prefix_length_le (List.prefix_append _ _) hr h
      exact ⟨_, this.choose_spec.symm⟩
    rw [List.prefix_append_right_inj] at hr
    rw [List.length_append] at hlt
    obtain ⟨o, hc⟩ := readCode_bin h0 h1 wide l det off
    obtain ⟨e, d', w', o', hval⟩ := readValue_cut hv hr (by omega) det p.code o
    refine ⟨e, ⟨[], d', w', o'⟩, ?_, rfl⟩
    unfold BinIter.next
    simp only [hc]
    rw [hwt]
    simp only [hval]

theorem torn_error (e : DxfErr) (p : CodePair) : Torn False False p (some (.error e)) :=
  ⟨(fun _ h => by cases h), fun _ h => by cases h⟩

theorem binItems_hopes {wide : Bool} {p : CodePair} (hp : p.WellTyped) (hb : BinOk wide p.value)
    {rest : List Byte} (hr : rest <+: writeBinPair wide p)
    (hlt : rest.length < (writeBinPair wide p).length) :
    ∀ (ps : List CodePair), (∀ q ∈ ps, q.WellTyped ∧ BinOk wide q.value) →
      ∀ (fuel off : Nat), ps.length + 1 < fuel →
      List.Forall₂ Meets (hopes ps p False False (!rest.isEmpty))
        (BinIter.items fuel ⟨ps.flatMap (writeBinPair wide) ++ rest, true, wide, off⟩) := by
  intro ps
  induction ps with
  | nil =>
    intro _ fuel off hf
    obtain ⟨n, rfl⟩ : ∃ n, fuel = n + 2 := ⟨fuel - 2, by simp at hf; omega⟩
    rw [BinIter.items]
    cases rest with
    | nil => exact .nil
    | cons b bs =>
      obtain ⟨e, t, h1, h2⟩ := next_cut hp hb hr hlt (by simp) true off
      rw [show ([] : List CodePair).flatMap (writeBinPair wide) ++ b :: bs = b :: bs from rfl, h1]
      refine .cons (torn_error e p) ?_
      dsimp only
      rw [BinIter.items, h2]
      exact .nil
  | cons q ps ih =>
    intro hq fuel off hf
    obtain ⟨n, rfl⟩ : ∃ n, fuel = n + 1 := ⟨fuel - 1, by simp at hf; omega⟩
    obtain ⟨h1, h2⟩ := hq q List.mem_cons_self
    rw [BinIter.items, List.flatMap_cons, List.append_assoc]
    obtain ⟨o, ho⟩ := next_bin h1 h2 true (.inl rfl) (ps.flatMap (writeBinPair wide) ++ rest) off
    have hd : (writeBinPair wide q ++ (ps.flatMap (writeBinPair wide) ++ rest)).isEmpty = false := by
      rw [List.isEmpty_eq_false_iff]
      intro h
      have := writeBinPair_pos wide q
      have := congrArg List.length h
      rw [List.length_append, List.length_nil] at this
      omega
    simp only [hd, ho, Bool.false_eq_true, if_false]
    exact .cons (.inr ⟨_, rfl, rfl, fun _ => rfl⟩)
      (ih (fun r hr => hq r (List.mem_cons_of_mem _ hr)) n o (by simp at hf; omega))

/-- The items of a binary file that was not written to its end. -/
theorem binAll_hopes {wide : Bool} {p : CodePair} (hp : p.WellTyped) (hb : BinOk wide p.value)
    {rest : List Byte} (hr : rest <+: writeBinPair wide p)
    (hlt : rest.length < (writeBinPair wide p).length) {q : CodePair} {ps : List CodePair}
    (hq : ∀ r ∈ q :: ps, r.WellTyped ∧ BinOk wide r.value)
    (hfirst : q = .newStr 0 str!"SECTION") (off : Nat) :
    List.Forall₂ Meets (hopes (q :: ps) p False False (!rest.isEmpty))
      (BinIter.all ⟨(q :: ps).flatMap (writeBinPair wide) ++ rest, false, false, off⟩) := by
  obtain ⟨h1, h2⟩ := hq q List.mem_cons_self
  obtain ⟨o, ho⟩ : ∃ o, BinIter.next ⟨writeBinPair wide q ++ (ps.flatMap (writeBinPair wide) ++ rest),
      false, false, off⟩ = (some (.ok ⟨q.code, q.value, o⟩),
        ⟨ps.flatMap (writeBinPair wide) ++ rest, true, wide, o⟩) := by
    cases wide with
    | true => exact next_bin_first (by rw [hfirst]; rfl) (by rw [hfirst]; rfl) h2 _ off
    | false =>
      refine next_bin h1 h2 false (.inr (.inr fun s hs => ?_)) _ off
      rw [hfirst] at hs
      cases hs
      simp
  have hpos := writeBinPair_pos wide q
  have hlen := length_le_writeBin wide ps
  have hd : (writeBinPair wide q ++ (ps.flatMap (writeBinPair wide) ++ rest)).isEmpty = false := by
    rw [List.isEmpty_eq_false_iff]
    intro h
    have := congrArg List.length h
    rw [List.length_append, List.length_nil] at this
    omega
  unfold BinIter.all
  rw [BinIter.items, List.flatMap_cons, List.append_assoc]
  simp only [hd, ho, Bool.false_eq_true, if_false]
  refine .cons (.inr ⟨_, rfl, rfl, fun _ => rfl⟩)
    (binItems_hopes hp hb hr hlt ps (fun r hr => hq r (List.mem_cons_of_mem _ hr)) _ o ?_)
  rw [List.length_append, List.length_append]
  have h10 : 2 ≤ (writeBinPair wide q).length := by rw [hfirst]; cases wide <;> decide
  omega

/-- A piece of the first pair. -/
theorem binAll_piece (wide : Bool) {rest : List Byte}
    (hr : rest <+: writeBinPair wide (.newStr 0 str!"SECTION"))
    (hlt : rest.length < (writeBinPair wide (.newStr 0 str!"SECTION")).length) (hne : rest ≠ []) :
    BinIter.all ⟨rest, false, false, 20⟩ = [some (.error .unexpectedEndOfInput)] := by
  rw [List.prefix_iff_eq_take] at hr
  have hpos := List.length_pos_iff.mpr hne
  generalize rest.length = m at hr hlt hpos
  subst hr
  cases wide with
  | true =>
    have hlen : (writeBinPair true (.newStr 0 str!"SECTION")).length = 10 := by decide
    rw [hlen] at hlt
    have : ∀ m, 0 < m → m < 10 → BinIter.all ⟨(writeBinPair true (.newStr 0 str!"SECTION")).take m,
        false, false, 20⟩ = [some (.error .unexpectedEndOfInput)] := by
      intro m h1 h2
      have : m = 1 ∨ m = 2 ∨ m = 3 ∨ m = 4 ∨ m = 5 ∨ m = 6 ∨ m = 7 ∨ m = 8 ∨ m = 9 := by omega
      rcases this with rfl | rfl | rfl | rfl | rfl | rfl | rfl | rfl | rfl <;> rfl
    exact this m hpos hlt
  | false =>
    have hlen : (writeBinPair false (.newStr 0 str!"SECTION")).length = 9 := by decide
    rw [hlen] at hlt
    have : ∀ m, 0 < m → m < 9 → BinIter.all ⟨(writeBinPair false (.newStr 0 str!"SECTION")).take m,
        false, false, 20⟩ = [some (.error .unexpectedEndOfInput)] := by
      intro m h1 h2
      have : m = 1 ∨ m = 2 ∨ m = 3 ∨ m = 4 ∨ m = 5 ∨ m = 6 ∨ m = 7 ∨ m = 8 := by omega
      rcases this with rfl | rfl | rfl | rfl | rfl | rfl | rfl | rfl <;> rfl
    exact this m hpos hlt

theorem fileItems_prelude (enc : Enc) (bytes : List Byte) :
    fileItems enc (binPrelude ++ bytes) = .ok (some (BinIter.all ⟨bytes, false, false, 20⟩,
      BinIter.all ⟨bytes, false, false, 20⟩)) := by
  unfold fileItems binPrelude
  have e : utf8Encode (str!"AutoCAD Binary DXF\r\n") ++ [byte 26, byte 0] ++ bytes =
      utf8Encode (str!"AutoCAD Binary DXF" ++ str!"\r\n") ++ (byte 26 :: byte 0 :: bytes) := by simp
  rw [e, readLine_written true enc (str!"AutoCAD Binary DXF") _ (by decide) (by decide)
    (decode_ascii _ (by decide))]
  simp only
  rw [if_neg (by decide)]
  unfold newPairIter
  rw [if_pos rfl]
  simp only
  rw [if_neg (by decide), if_neg (by decide)]
  rfl

/-- A file with a piece of the prelude of a binary file only. -/
theorem fileItems_prelude_cut (enc : Enc) {n : Nat} (h0 : 0 < n) (hn : n < 22) :
    (∃ e, fileItems enc (binPrelude.take n) = .error e) ∨
    ∃ e, fileItems enc (binPrelude.take n) = .ok (some ([some (.error e)], [some (.error e)])) := by
  have : n = 1 ∨ n = 2 ∨ n = 3 ∨ n = 4 ∨ n = 5 ∨ n = 6 ∨ n = 7 ∨ n = 8 ∨ n = 9 ∨ n = 10 ∨ n = 11 ∨
      n = 12 ∨ n = 13 ∨ n = 14 ∨ n = 15 ∨ n = 16 ∨ n = 17 ∨ n = 18 ∨ n = 19 ∨ n = 20 ∨ n = 21 := by
    omega
  rcases this with rfl | rfl | rfl | rfl | rfl | rfl | rfl | rfl | rfl | rfl | rfl | rfl | rfl |
    rfl | rfl | rfl | rfl | rfl | rfl | rfl | rfl <;> cases enc <;>
    first | exact .inr ⟨_, rfl⟩ | exact .inl ⟨_, rfl⟩

end Dxf
