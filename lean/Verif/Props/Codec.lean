import Verif.Lemmas.Readers
import Verif.Spec.Codes

/-! # C07 - C12: the two file formats as pair streams -/

namespace Dxf

/-! ## C07 ASCII code-pair stream round trip -/

/-- The encoding that matches a file written for an old (up to R2004) or new version. -/
def textEnc (old : Bool) : Enc := if old then .win1252 else .utf8

/-- Reading the text file written for a list of pairs yields the same codes and values in the
same order and nothing else; the offset of a pair is the number of its code line. -/
theorem C07_roundtrip (old : Bool) (ps : List CodePair) (hne : ps ≠ [])
    (hwt : ∀ p ∈ ps, p.WellTyped) (hv : ∀ p ∈ ps, TextValue old p.value) :
    ∃ main alt qs, fileItems (textEnc old) (writeAscii old ps) = .ok (some (main, alt)) ∧
      Yields main qs ∧ List.Forall₂ SamePair ps qs ∧
      ∀ i q, qs[i]? = some q → q.offset = 2 * i + 1 := by
  cases ps with
  | nil => exact absurd rfl hne
  | cons p ps =>
    have hok : ∀ q ∈ p :: ps, ValOk old (textEnc old) q.value := by
      intro q hq
      have := hv q hq
      cases hval : q.value with
      | str s =>
        rw [hval] at this
        simp only [TextValue] at this
        simp only [ValOk, textEnc]
        cases old with
        | true => exact strOk_old this
        | false => exact strOk_new this
      | _ => trivial
    refine ⟨_, _, expectedPairs 0 (p :: ps), fileItems_written old _ p ps,
      all_written p ps hwt hok, ?_, ?_⟩
    · generalize p :: ps = l
      generalize 0 = off
      induction l generalizing off with
      | nil => exact .nil
      | cons q qs ih => exact .cons ⟨rfl, sameValue_textVal q.value⟩ (ih _)
    · intro i q hq
      rw [expectedPairs_get] at hq
      cases hl : (p :: ps)[i]? with
      | none => rw [hl] at hq; simp at hq
      | some x =>
        rw [hl] at hq
        simp only [Option.map_some, Option.some.injEq] at hq
        rw [← hq]
        simp

/-- What a new file holds before `$ACADVER` has switched the reader to UTF-8
(src/header.rs:44-50) is read under the default encoding: those pairs are the same when every
string is ASCII without a backslash or U+001C. -/
theorem C07_ascii_any_encoding (ps : List CodePair) (hne : ps ≠ [])
    (hwt : ∀ p ∈ ps, p.WellTyped)
    (hv : ∀ p ∈ ps, ∀ s, p.value = .str s → ∀ c ∈ s, c ≠ '\\' ∧ c.toNat ≠ 0x1C ∧ c.toNat < 128) :
    ∃ main alt qs, fileItems .win1252 (writeAscii false ps) = .ok (some (main, alt)) ∧
      Yields main qs ∧ Yields alt qs ∧ List.Forall₂ SamePair ps qs := by
  cases ps with
  | nil => exact absurd rfl hne
  | cons p ps =>
    have h1 : ∀ q ∈ p :: ps, ValOk false .win1252 q.value := by
      intro q hq
      cases hval : q.value with
      | str s => exact strOk_mixed (hv q hq s hval)
      | _ => trivial
    have h2 : ∀ q ∈ p :: ps, ValOk false .utf8 q.value := by
      intro q hq
      cases hval : q.value with
      | str s =>
        apply strOk_new
        unfold TextStr
        simp only [Bool.false_eq_true, if_false]
        intro hh
        have := (hv q hq s hval _ (List.mem_of_mem_head? hh)).2.2
        rw [bom_toNat] at this
        omega
      | _ => trivial
    refine ⟨_, _, expectedPairs 0 (p :: ps), fileItems_written false _ p ps,
      all_written p ps hwt h1, all_written p ps hwt h2, ?_⟩
    generalize p :: ps = l
    generalize 0 = off
    induction l generalizing off with
    | nil => exact .nil
    | cons q qs ih => exact .cons ⟨rfl, sameValue_textVal q.value⟩ (ih _)

/-- An empty file gives a stream whose only result is the end. -/
theorem C07_empty (enc : Enc) : fileItems enc [] = .ok (some ([none], [none])) := by
  cases enc <;> decide

/-- Pairs of every wire type meet the hypotheses. -/
example :
    let ps : List CodePair := [⟨0, .str (str!"SECTION"), 0⟩, ⟨1, .str (str!"a^\n é"), 0⟩,
      ⟨10, .double ⟨0x3ff8000000000000#64⟩, 0⟩, ⟨70, .short 65535#16, 0⟩,
      ⟨90, .integer 7#32, 0⟩, ⟨160, .long 9#64, 0⟩, ⟨290, .boolean 1#16, 0⟩,
      ⟨310, .binary [1#8, 255#8], 0⟩]
    ps ≠ [] ∧ (∀ p ∈ ps, p.WellTyped) ∧ (∀ p ∈ ps, TextValue true p.value) ∧
      (∀ p ∈ ps, TextValue false p.value) := by decide

/-- A string starting with a byte order mark loses it. -/
theorem C07_bom_lost : fileItems .utf8 (writeAscii false [⟨1, .str [Char.ofNat 0xFEFF, 'a'], 0⟩]) =
    .ok (some ([some (.ok ⟨1, .str (str!"a"), 1⟩)], [some (.ok ⟨1, .str (str!"a"), 1⟩)])) := by
  decide +kernel

/-- A non-ASCII string of a new file that the reader meets before it has been switched to UTF-8
is damaged by the default encoding. -/
theorem C07_header_encoding :
    (fileItems .win1252 (writeAscii false [⟨1, .str (str!"é"), 0⟩])).map (Option.map Prod.fst) =
    .ok (some [some (.ok ⟨1, .str (str!"Ã©"), 1⟩)]) := by
  decide +kernel

/-! ## C08 Binary code-pair stream round trip -/

/-- Reading the binary file written for a list of pairs yields the same codes and values (all
values bit for bit) in the same order and nothing else, with one-byte codes (`wide = false`)
and two-byte codes (`wide = true`). -/
theorem C08_roundtrip (wide : Bool) (enc : Enc) (p : CodePair) (ps : List CodePair)
    (hwt : ∀ q ∈ p :: ps, q.WellTyped) (hv : ∀ q ∈ p :: ps, BinOk wide q.value)
    (hfirst : FirstOk wide p) :
    ∃ main qs, fileItems enc (writeBin wide (p :: ps)) = .ok (some (main, main)) ∧
      Yields main qs ∧ List.Forall₂ EqPair (p :: ps) qs := by
  obtain ⟨qs, h1, h2⟩ := all_bin p ps hwt hv hfirst 20
  exact ⟨_, qs, fileItems_bin wide enc (p :: ps), h1, h2⟩

instance (wide : Bool) (v : CodePairValue) : Decidable (BinOk wide v) := by
  cases v <;> unfold BinOk <;> infer_instance
instance (wide : Bool) (p : CodePair) : Decidable (FirstOk wide p) := by
  unfold FirstOk; infer_instance

example :
    let p : CodePair := ⟨0, .str (str!"SECTION"), 0⟩
    let ps : List CodePair := [⟨1, .str (str!"a^\n"), 0⟩,
      ⟨10, .double ⟨0x7ff8000000000001#64⟩, 0⟩, ⟨70, .short 65535#16, 0⟩,
      ⟨90, .integer 7#32, 0⟩, ⟨160, .long 9#64, 0⟩, ⟨290, .boolean 1#16, 0⟩,
      ⟨310, .binary [1#8, 255#8], 0⟩, ⟨1071, .integer 3#32, 0⟩]
    (∀ q ∈ p :: ps, q.WellTyped) ∧ (∀ wide, ∀ q ∈ p :: ps, BinOk wide q.value) ∧
      (∀ wide, FirstOk wide p) := by decide

/-- First results of a binary file. -/
def binItems (wide : Bool) (ps : List CodePair) : List Item :=
  BinIter.all ⟨ps.flatMap (writeBinPair wide), false, false, 20⟩

/-- Outside the limits the binary round trip fails: non-ASCII text is read as Latin-1. -/
theorem C08_non_ascii : binItems true [⟨0, .str (str!"é"), 0⟩] =
    [some (.ok ⟨0, .str (str!"Ã©"), 27⟩)] := by decide +kernel

/-- A chunk of 256 bytes is written with length byte 0 and its content read as pairs. -/
theorem C08_long_chunk :
    (binItems true [⟨0, .str (str!"A"), 0⟩, ⟨310, .binary (List.replicate 256 0x41#8), 0⟩]).take 3 =
    [some (.ok ⟨0, .str (str!"A"), 24⟩), some (.ok ⟨310, .binary [], 27⟩),
     some (.error (.unexpectedEnumValue 29))] := by
  decide +kernel

/-- A Boolean pair with a value of 256 is read back as false from a two-byte-code file. -/
theorem C08_boolean_truncated :
    binItems true [⟨0, .str (str!"A"), 0⟩, ⟨290, .boolean 256#16, 0⟩] =
    [some (.ok ⟨0, .str (str!"A"), 24⟩), some (.ok ⟨290, .boolean 0#16, 27⟩)] := by decide +kernel

/-- A two-byte-code file not starting with code 0 is taken for a one-byte-code file. -/
theorem C08_first_code : binItems true [⟨1, .str (str!"A"), 0⟩] ≠
    [some (.ok ⟨1, .str (str!"A"), 24⟩)] ∧
    (binItems true [⟨1, .str (str!"A"), 0⟩]).head? = some (some (.ok ⟨1, .str [], 22⟩)) := by
  decide +kernel

/-- A one-byte-code file starting with `0` and an empty string is taken for a two-byte-code
file. -/
theorem C08_first_empty : binItems false [⟨0, .str [], 0⟩, ⟨1, .str (str!"A"), 0⟩] ≠
    [some (.ok ⟨0, .str [], 22⟩), some (.ok ⟨1, .str (str!"A"), 25⟩)] := by
  decide +kernel

/-! ## C09 Text and binary files carry the same drawing -/

/-- Reading the text file and reading the binary file of the same pairs gives the same pairs,
up to the text rounding of doubles. -/
theorem C09_text_binary (old wide : Bool) (enc : Enc) (p : CodePair) (ps : List CodePair)
    (hwt : ∀ q ∈ p :: ps, q.WellTyped) (ht : ∀ q ∈ p :: ps, TextValue old q.value)
    (hb : ∀ q ∈ p :: ps, BinOk wide q.value) (hfirst : FirstOk wide p) :
    ∃ tmain talt bmain tqs bqs,
      fileItems (textEnc old) (writeAscii old (p :: ps)) = .ok (some (tmain, talt)) ∧
      fileItems enc (writeBin wide (p :: ps)) = .ok (some (bmain, bmain)) ∧
      Yields tmain tqs ∧ Yields bmain bqs ∧ List.Forall₂ SamePair bqs tqs := by
  obtain ⟨tm, ta, tq, h1, h2, h3, hoff⟩ := C07_roundtrip old (p :: ps) (by simp) hwt ht
  obtain ⟨bm, bq, h4, h5, h6⟩ := C08_roundtrip wide enc p ps hwt hb hfirst
  refine ⟨tm, ta, bm, tq, bq, h1, h4, h2, h5, ?_⟩
  generalize p :: ps = l at h3 h6
  clear h1 h2 h4 h5 hoff
  induction h3 generalizing bq with
  | nil => cases h6; exact .nil
  | cons hd _ ih =>
    cases h6 with
    | cons hd' tl' =>
      refine .cons ⟨hd'.1.symm.trans hd.1, ?_⟩ (ih _ tl')
      rw [← hd'.2]
      exact hd.2

/-! ## C10 Comments are invisible -/

/-- Any consumer of a put-back iterator: it asks for items, decides on what it saw, puts
items back and finally delivers a result. -/
inductive Consumer (α : Type) where
  | done (a : α)
  | next (k : Item → Consumer α)
  | putBack (x : Except DxfErr CodePair) (k : Consumer α)

/-- What the consumer delivers on a given put-back iterator. -/
def Consumer.run {α : Type} : Consumer α → PutBack → α
  | .done a, _ => a
  | .next k, pb => (k pb.next.1).run pb.next.2
  | .putBack x k, pb => k.run (pb.putBack x)

/-- Two item sequences differ only in comment pairs. -/
def SameUpToComments (a b : List Item) : Prop :=
  a.filter (fun i => !isComment i) = b.filter (fun i => !isComment i)

/-- No consumer can tell item sequences apart that differ only in 999 comment pairs. -/
theorem C10_invisible {α : Type} (c : Consumer α) (a b : List Item) (h : SameUpToComments a b) :
    c.run (.fromIter a) = c.run (.fromIter b) := by
  suffices ∀ top, c.run ⟨top, a⟩ = c.run ⟨top, b⟩ from this []
  induction c generalizing a b with
  | done x => intro top; rfl
  | putBack x k ih => intro top; exact ih a b h (x :: top)
  | next k ih =>
    intro top
    cases top with
    | cons x xs => exact ih (some x) a b h xs
    | nil =>
      unfold SameUpToComments at h
      simp only [Consumer.run, PutBack.next]
      rcases next_filter a with ⟨it, r, h1, h2⟩ | ⟨h1, h2⟩ <;>
        rcases next_filter b with ⟨it', r', h3, h4⟩ | ⟨h3, h4⟩
      · rw [h2, h4, List.cons.injEq] at h
        rw [h1, h3]
        simp only
        rw [h.1]
        exact ih it' r r' h.2 []
      · rw [h2, h4] at h; simp at h
      · rw [h2, h4] at h; simp at h
      · rw [h1, h3]

/-- Inserting comments anywhere is such a difference. -/
theorem C10_insert (a b : List Item) (cs : List Str) (off : Nat) :
    SameUpToComments (a ++ cs.map (fun s => some (.ok ⟨999, .str s, off⟩)) ++ b) (a ++ b) := by
  unfold SameUpToComments
  rw [List.filter_append, List.filter_append, List.filter_append]
  have : (cs.map fun s => (some (.ok ⟨999, .str s, off⟩) : Item)).filter
      (fun i => !isComment i) = [] := by
    rw [List.filter_eq_nil_iff]
    intro x hx
    obtain ⟨s, _, rfl⟩ := List.mem_map.mp hx
    simp [isComment]
  rw [this, List.append_nil]

/-- Put-back items come first, in last-in-first-out order. -/
theorem C10_lifo (pb : PutBack) (x : Except DxfErr CodePair) :
    (pb.putBack x).next = (some x, pb) := rfl

/-- The flat stream used by the readers of the model behaves like the put-back iterator as
long as no comment is put back (readers only put back what they were given). -/
theorem C10_flat_next (pb : PutBack) (h : ∀ x ∈ pb.top, isComment (some x) = false) :
    Stream.next (pb.top.map some ++ pb.items) =
      (pb.next.1, pb.next.2.top.map some ++ pb.next.2.items) ∧
    isComment pb.next.1 = false := by
  cases hp : pb.top with
  | nil =>
    refine ⟨by simp [PutBack.next, hp], ?_⟩
    simp only [PutBack.next, hp]
    generalize pb.items = l
    induction l with
    | nil => rfl
    | cons y ys ih =>
      rw [Stream.next]
      cases hc : isComment y with
      | true => simpa using ih
      | false => simpa using hc
  | cons x xs =>
    have hx := h x (by rw [hp]; exact List.mem_cons_self)
    constructor
    · simp [PutBack.next, hp, Stream.next, hx]
    · simpa [PutBack.next, hp] using hx

example : Consumer.run (.next fun a => .putBack (.error .unexpectedEndOfInput) (.next fun b =>
      .next fun c => .done [a, b, c]))
    (.fromIter [some (.ok ⟨999, .str [], 1⟩), some (.ok ⟨0, .str [], 3⟩),
      some (.ok ⟨999, .str [], 5⟩)]) =
    [some (.ok ⟨0, .str [], 3⟩), some (.error .unexpectedEndOfInput), none] := by rfl

/-! ## C11 Every value has exactly one wire type -/

/-- The table covers exactly the documented ranges. -/
theorem C11_table (c : Int) (t : ExpectedType) :
    ExpectedType.new c = some t ↔ ∃ r ∈ codeRanges, r.1 ≤ c ∧ c ≤ r.2.1 ∧ r.2.2 = t := by
  constructor
  · intro h
    obtain ⟨h0, h1⟩ := expected_range h
    obtain ⟨n, rfl⟩ := Int.eq_ofNat_of_zero_le h0
    have hn : n < 1072 := by omega
    have key : ∀ n < 1072, ∀ t, ExpectedType.new (Int.ofNat n) = some t →
        ∃ r ∈ codeRanges, r.1 ≤ Int.ofNat n ∧ Int.ofNat n ≤ r.2.1 ∧ r.2.2 = t := by
      have : ∀ n < 1072, ∀ t ∈ [ExpectedType.boolean, .integer, .long, .short, .double, .str, .binary],
          ExpectedType.new (Int.ofNat n) = some t →
          ∃ r ∈ codeRanges, r.1 ≤ Int.ofNat n ∧ Int.ofNat n ≤ r.2.1 ∧ r.2.2 = t := by
        decide +kernel
      intro n hn t
      exact this n hn t (by cases t <;> decide)
    exact key n hn t h
  · rintro ⟨r, hr, h0, h1, h2⟩
    have hb : ∀ r ∈ codeRanges, 0 ≤ r.1 ∧ r.2.1 < 1072 := by decide
    obtain ⟨n, rfl⟩ := Int.eq_ofNat_of_zero_le (Int.le_trans (hb r hr).1 h0)
    have hn : n < 1072 := by have := (hb r hr).2; omega
    have key : ∀ n < 1072, ∀ r ∈ codeRanges, r.1 ≤ Int.ofNat n → Int.ofNat n ≤ r.2.1 →
        ExpectedType.new (Int.ofNat n) = some r.2.2 := by decide +kernel
    rw [← h2]
    exact key n hn r hr h0 h1

/-- The ranges do not overlap, so no code has two types. -/
theorem C11_disjoint : codeRanges.Pairwise fun a b => a.2.1 < b.1 := by decide

/-- A pair that a reader produced from any bytes carries a value of the type its code
demands. -/
theorem C11_wellTyped (enc : Enc) (file : List Byte) (main alt : List Item)
    (h : fileItems enc file = .ok (some (main, alt))) :
    ∀ p, some (.ok p) ∈ main ++ alt → p.WellTyped := by
  unfold fileItems at h
  simp only at h
  split at h
  · simp at h
  · split at h
    · simp at h
    · unfold newPairIter at h
      split at h
      · split at h
        · simp [Except.map] at h
        · split at h
          · simp [Except.map] at h
          · split at h
            · simp [Except.map] at h
            · split at h
              · simp [Except.map] at h
              · simp only [Except.map, Except.ok.injEq, Option.some.injEq, Prod.mk.injEq] at h
                obtain ⟨rfl, rfl⟩ := h
                intro p hp
                rw [List.mem_append, or_self] at hp
                exact items_bin_wellTyped _ _ p hp
      · simp only [Except.map, Except.ok.injEq, Option.some.injEq, Prod.mk.injEq] at h
        obtain ⟨rfl, rfl⟩ := h
        intro p hp
        rw [List.mem_append] at hp
        rcases hp with hp | hp <;> exact items_wellTyped _ _ p hp

/-- The accessor for the type of a pair's code never fails on a well-typed pair. -/
theorem C11_accessors (p : CodePair) (h : p.WellTyped) :
    (ExpectedType.new p.code = some .boolean → ∃ v, p.value = .boolean v ∧
      p.assertBool = .ok (v ≠ 0) ∧ p.assertI16 = .ok v) ∧
    (ExpectedType.new p.code = some .short → ∃ v, p.value = .short v ∧ p.assertI16 = .ok v) ∧
    (ExpectedType.new p.code = some .integer → ∃ v, p.value = .integer v ∧ p.assertI32 = .ok v) ∧
    (ExpectedType.new p.code = some .long → ∃ v, p.value = .long v ∧ p.assertI64 = .ok v) ∧
    (ExpectedType.new p.code = some .double → ∃ v, p.value = .double v ∧ p.assertF64 = .ok v) ∧
    (ExpectedType.new p.code = some .str → ∃ v, p.value = .str v ∧ p.assertString = .ok v) ∧
    (ExpectedType.new p.code = some .binary → ∃ v, p.value = .binary v ∧ p.assertBinary = .ok v) := by
  unfold CodePair.WellTyped at h
  obtain ⟨code, value, off⟩ := p
  simp only at h
  cases value <;> simp only [CodePairValue.type] at h <;>
    simp [h, CodePair.assertBool, CodePair.assertI16, CodePair.assertI32, CodePair.assertI64,
      CodePair.assertF64, CodePair.assertString, CodePair.assertBinary]

/-- A text pair with a code outside the table is an error naming the line of its value. -/
theorem C11_unknown_text (t : TextIter) (line val : Str) (code : I32)
    (h1 : t.readCode.1 = .ok line) (h2 : trim line ≠ [])
    (h3 : parseI32 (trim line) t.readCode.2.offset = .ok code)
    (h4 : (readLine false t.readCode.2.enc t.readCode.2.bytes).1 = .ok val)
    (h5 : ExpectedType.new code.toInt = none) :
    t.next.1 = some (.error (.unexpectedEnumValue (t.readCode.2.offset + 1))) := by
  unfold TextIter.next
  simp only [h1, h2, if_false, h3, TextIter.readValue, h4, h5]

/-- A binary pair with a code outside the table is an error naming the current offset. -/
theorem C11_unknown_binary (t : BinIter) (code : Int) (h1 : t.readCode.1 = some (.ok code))
    (h2 : ExpectedType.new code = none) :
    t.next = (some (.error (.unexpectedEnumValue t.readCode.2.offset)), t.readCode.2) := by
  unfold BinIter.next
  simp only [h1, h2]

example : (TextIter.next ⟨utf8Encode (str!"  80\r\n1\r\n"), .win1252, none, 0⟩).1 =
    some (.error (.unexpectedEnumValue 2)) := by decide +kernel
example : (BinIter.next ⟨[80#8, 1#8], true, false, 20⟩).1 =
    some (.error (.unexpectedEnumValue 21)) := by decide +kernel

/-! ## C12 Arbitrary bytes never hang or crash the pair readers -/

/-- Repeated `next` on a text file comes to the end of the input: the result of collecting
does not depend on the bound once it exceeds the input length, and there are at most
`length + 1` results. -/
theorem C12_text_terminates (t : TextIter) (n : Nat) (h : t.bytes.length + 1 ≤ n) :
    TextIter.items n t = t.all ∧ t.all.length ≤ t.bytes.length + 1 := by
  have hw : t.work ≤ t.bytes.length + 1 := by
    unfold TextIter.work; split <;> omega
  exact ⟨items_fuel t n _ (by omega) hw, Nat.le_trans (items_length _ t) hw⟩

/-- The same for a binary file. -/
theorem C12_binary_terminates (t : BinIter) (n : Nat) (h : t.bytes.length ≤ n) :
    BinIter.items n t = t.all ∧ t.all.length ≤ t.bytes.length :=
  ⟨items_bin_fuel t n _ h (by omega), items_bin_length _ t⟩

/-- At the end of the input the readers report the end, forever. -/
theorem C12_end (t : TextIter) (b : BinIter) (hf : t.firstLine = none) (ht : t.bytes = [])
    (hb : b.bytes = []) : t.next.1 = none ∧ t.next.2.bytes = [] ∧ b.next = (none, b) := by
  refine ⟨next_empty t hf ht, ?_, next_bin_empty b hb⟩
  have := next_bytes_le t
  rw [ht] at this
  simpa using this

/-- Every result other than the end, and also an early end, uses up at least one byte
(or the first line that was read before the reader was built). -/
theorem C12_progress (t : TextIter) (b : BinIter) :
    (t.bytes ≠ [] → t.firstLine = none → t.next.2.bytes.length < t.bytes.length) ∧
    t.next.2.firstLine = none ∧
    (b.bytes ≠ [] → b.next.2.bytes.length < b.bytes.length) :=
  ⟨fun h1 h2 => next_bytes_lt t h2 h1, next_firstLine t, fun h => next_bin_lt b h⟩

/-- The number of line feeds in the part of `file` before its suffix of length `left`. -/
def linesBefore (file : List Byte) (left : Nat) : Nat :=
  (file.take (file.length - left)).count 0x0A#8

/-- The offset reported with a text pair is the 1-based line number of its code line: for the
first pair 1, for every later pair one more than the number of line feeds in the part of the
file consumed before its code line is read. -/
theorem C12_line_number (enc : Enc) (file : List Byte) (l : Str) (n : Nat) (p : CodePair)
    (h : ((TextIter.mk (readLine true enc file).2 enc (some l) 1).after n).next.1 =
      some (.ok p)) :
    p.offset = if n = 0 then 1 else
      1 + linesBefore file ((TextIter.mk (readLine true enc file).2 enc (some l) 1).after n).bytes.length := by
  have hoff := (next_pair h).2
  have h0 : LinesRead file (readLine true enc file).2 1 :=
    linesRead_readLine (off := 0) (Or.inr ⟨[], rfl, rfl⟩) true enc
  have hinv := linesRead_after (t := ⟨(readLine true enc file).2, enc, some l, 1⟩) h0 n
  cases n with
  | zero =>
    rw [if_pos rfl, hoff]
    rfl
  | succ n =>
    have hfl : ((TextIter.mk (readLine true enc file).2 enc (some l) 1).after (n + 1)).firstLine =
        none := by rw [after_succ]; exact next_firstLine _
    generalize (TextIter.mk (readLine true enc file).2 enc (some l) 1).after (n + 1) = t at *
    rw [if_neg (by omega), hoff]
    have hrc : t.readCode.2.offset = t.offset + 1 := by
      unfold TextIter.readCode; rw [hfl]
    rw [hrc]
    rcases hinv with hb | ⟨pre, h1, h2⟩
    · rw [next_empty t hfl hb] at h; simp at h
    · have : linesBefore file t.bytes.length = pre.count 0x0A#8 := by
        unfold linesBefore
        have hl : file.length - t.bytes.length = pre.length := by rw [h1]; simp
        rw [hl]
        conv_lhs => rw [h1]
        simp
      rw [this, h2]
      omega

/-- A file with a comment, a blank line in a value and a bad code line. -/
example :
    let file := utf8Encode (str!"999\n hi\n  0\n\nx\n 70\n5\n")
    (fileItems .win1252 file).map (Option.map Prod.fst) =
      .ok (some [some (.ok ⟨999, .str (str!" hi"), 1⟩), some (.ok ⟨0, .str [], 3⟩),
        some (.error (.parseIntError 5)), some (.ok ⟨70, .short 5#16, 6⟩)]) := by
  decide +kernel

end Dxf
