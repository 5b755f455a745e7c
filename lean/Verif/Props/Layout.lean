import Verif.Lemmas.Layout
import Verif.Props.Bytes

/-! The layout of text files: C62. -/

namespace Dxf

open Drawing

variable {Img : Type}

/-- C62: loading a text file gives the same drawing or the same error whatever line ends it has,
whatever spaces stand around codes and numbers, with or without a line end after the last line and
with or without a UTF-8 byte order mark. -/
theorem C62 (codec : ImageCodec Img) (enc : Enc) (h0 : Header) (order : List Str)
    {m m' b b' : List Byte} (h : Relaid m m') (hb : Mark b) (hb' : Mark b') :
    loadBytes codec enc h0 order (b ++ m) = loadBytes codec enc h0 order (b' ++ m') := by
  obtain ⟨main, alt, e, e'⟩ := fileItems_relaid h hb hb' enc
  unfold loadBytes
  rw [e, e']

/-- C62 for saved files: converting the line ends of a saved text file to line feeds, and putting a
byte order mark before it, does not change what is loaded.  (In Rust codes always have 32 bits.) -/
theorem C62_saved (codec codec' : ImageCodec Img) (enc : Enc) (h0 : Header) (order : List Str)
    {d : Drawing Img} {ps : List CodePair} {file b : List Byte} (hp : d.codePairs codec = .ok ps)
    (hc : ∀ p ∈ ps, -2 ^ 31 ≤ p.code ∧ p.code < 2 ^ 31) (hs : d.saveText codec = .ok file)
    (hb : Mark b) :
    loadBytes codec' enc h0 order (b ++ file.filter (· ≠ 0x0D#8)) =
      loadBytes codec' enc h0 order file := by
  unfold saveText at hs
  rw [hp] at hs
  cases hs
  exact (C62 codec' enc h0 order (relaid_written _ ps hc) (.inl rfl) hb).symm

theorem trim_blank {x : List Byte} (h : ∀ b ∈ x, Blank b) :
    (∀ b ∈ x, Inked b) ∧ trim (txt x) = [] := by
  have : Repadded [] x := ⟨[], x, [], [], [], rfl, by simp, by simpa using h, by simp⟩
  exact ⟨this.spec.2.1, this.spec.2.2.symm⟩

theorem blank_not_word {l t : Str} (hl : trim l = []) (ht : trim t = t) (h : t ≠ []) : l ≠ t := by
  rintro rfl
  exact h (ht.symm.trans hl)

/-- The results for a file that begins with two blank lines. -/
theorem fileItems_blank (enc : Enc) {x e x' e' rest : List Byte} (hx : ∀ b ∈ x, Blank b)
    (he : LineEnd e) (hx' : ∀ b ∈ x', Blank b) (he' : LineEnd e') :
    ∃ main alt, fileItems enc (x ++ (e ++ (x' ++ (e' ++ rest)))) =
      .ok (some (none :: none :: main, none :: none :: alt)) := by
  obtain ⟨h1, h2⟩ := trim_blank hx
  obtain ⟨h1', h2'⟩ := trim_blank hx'
  have key : ∀ enc : Enc, ∃ l, TextIter.all ⟨x' ++ (e' ++ rest), enc, some (txt x), 1⟩ =
      none :: none :: l := by
    intro enc
    have p := he'.pos
    have hl : 0 < (x' ++ (e' ++ rest)).length := by
      simp only [List.length_append]
      omega
    have n1 : TextIter.next ⟨x' ++ (e' ++ rest), enc, some (txt x), 1⟩ =
        (none, ⟨x' ++ (e' ++ rest), enc, none, 1⟩) := by
      unfold TextIter.next TextIter.readCode
      dsimp only
      rw [if_pos h2]
    have n2 : (TextIter.next ⟨x' ++ (e' ++ rest), enc, none, 1⟩).1 = none := by
      unfold TextIter.next TextIter.readCode
      dsimp only
      rw [readLine_inked' h1' (.inl he')]
      dsimp only
      rw [if_pos h2']
    obtain ⟨f, hf⟩ : ∃ f, (x' ++ (e' ++ rest)).length = f + 1 := ⟨_, (Nat.succ_pred_eq_of_pos hl).symm⟩
    unfold TextIter.all
    rw [items_go (by simp [TextIter.done]), n1]
    dsimp only
    rw [hf, items_go (not_done hl enc 1), n2]
    exact ⟨_, rfl⟩
  obtain ⟨main, hm⟩ := key enc
  obtain ⟨alt, ha⟩ := key .utf8
  refine ⟨main, alt, ?_⟩
  unfold fileItems
  rw [readLine_inked' h1 (.inl he)]
  dsimp only
  rw [if_neg (blank_not_word h2 (by decide) (by decide))]
  unfold newPairIter
  rw [if_neg (blank_not_word h2 (by decide) (by decide)), ← hm, ← ha]
  rfl

/-- Loading ends without an error when the iterator ends where a section or the end of the file is
expected, and ends again. -/
theorem load_nothing (codec : ImageCodec Img) (h0 : Header) (order : List Str) (main : Stream) :
    (load codec h0 order (none :: none :: main)).1 = (new h0 order).map clear ∧
    (loadUntil codec h0 order (none :: none :: main)).1 ≠ .ok true := by
  unfold load loadUntil
  cases (new h0 order : Except DxfErr (Drawing Img)) <;> exact ⟨rfl, fun h => nomatch h⟩

/-- C62: blank lines do not belong to the layout.  After two blank lines where a section or the end
of the file is expected, here at the beginning, the rest of the file is not read, and no error is
reported. -/
theorem C62_blank (codec : ImageCodec Img) (enc : Enc) (h0 : Header) (order : List Str)
    {x e x' e' rest : List Byte} (hx : ∀ b ∈ x, Blank b) (he : LineEnd e) (hx' : ∀ b ∈ x', Blank b)
    (he' : LineEnd e') :
    loadBytes codec enc h0 order (x ++ (e ++ (x' ++ (e' ++ rest)))) =
      (new h0 order).map clear ∧
    loadBytes codec enc h0 order [] = (new h0 order).map clear := by
  constructor
  · obtain ⟨main, alt, e⟩ := fileItems_blank (rest := rest) enc hx he hx' he'
    unfold loadBytes
    rw [e]
    dsimp only
    unfold switched
    have h := (load_nothing (Img := Img) codec h0 order main).2
    split
    · rename_i h'
      rw [h'] at h
      exact absurd rfl h
    · exact (load_nothing codec h0 order main).1
  · unfold loadBytes
    cases enc <;> (change (load codec h0 order (switched codec h0 order [none] [none])).1 = _) <;>
      (unfold switched load loadUntil; cases (new h0 order : Except DxfErr (Drawing Img)) <;> rfl)

/-- C62: a carriage return that belongs to the text is lost when the line ends with a line feed
only. -/
theorem C62_return (enc : Enc) (rest : List Byte) :
    (readLine false enc ([0x41#8, 0x0D#8] ++ ([0x0D#8, 0x0A#8] ++ rest))).1 = .ok str!"A\r" ∧
    (readLine false enc ([0x41#8, 0x0D#8] ++ ([0x0A#8] ++ rest))).1 = .ok str!"A" := by
  cases enc <;> exact ⟨rfl, rfl⟩

/-- C62: text in UTF-16, which a byte order mark announces, can be read when the line ends with a
line feed, and is refused when it ends with a carriage return and a line feed. -/
theorem C62_utf16 (enc : Enc) (rest : List Byte) :
    (readLine false enc ([0xFE#8, 0xFF#8, 0x00#8, 0x41#8] ++ ([0x0A#8] ++ rest))).1 = .ok str!"A" ∧
    (readLine false enc ([0xFE#8, 0xFF#8, 0x00#8, 0x41#8] ++ ([0x0D#8, 0x0A#8] ++ rest))).1 =
      .error .malformedString := by
  have h : ∀ enc, decode enc [0xFE#8, 0xFF#8, 0x00#8, 0x41#8] = some str!"A" := by
    intro enc
    cases enc <;> decide +kernel
  refine ⟨?_, rfl⟩
  unfold readLine
  rw [show lineBytes false 0 false ([0xFE#8, 0xFF#8, 0x00#8, 0x41#8] ++ ([0x0A#8] ++ rest)) =
    ([0xFE#8, 0xFF#8, 0x00#8, 0x41#8], rest) from rfl]
  dsimp only
  rw [h]
  rfl

/-! ### The hypotheses can be met -/

/-- The end of a file as it is written, and with tabs, line feeds only and nothing after the last
line. -/
example : Relaid
    (numeral 0 ++ ([0x0D#8, 0x0A#8] ++ (utf8Encode str!"EOF" ++ ([0x0D#8, 0x0A#8] ++ []))))
    ((0x09#8 :: numeral 0) ++ ([0x0A#8] ++ (utf8Encode str!"EOF" ++ ([] ++ [])))) :=
  .last (n := 0) (by decide) (by decide)
    ⟨[], [], numeral 0, [], [], by simp, by simp, by simp, by decide⟩
    ⟨[], [0x09#8], numeral 0, [], [], by simp, by simp, by simp [Blank], by decide⟩
    (.inl ⟨⟨by decide, by decide, by decide, by decide⟩, rfl⟩) (.inr rfl) (.inl rfl) (.inl (.inr rfl))
    (.inr rfl)

/-- A radius with other spaces around it. -/
example : SameLine 40 (utf8Encode str!"1.5") (utf8Encode str!"   1.5 ") :=
  .inr ⟨⟨.double, by decide, by decide, by decide⟩, [], utf8Encode str!"   ", utf8Encode str!"1.5", [],
    utf8Encode str!" ", by decide, by decide,
    show ∀ x ∈ _, x = 0x20#8 ∨ x = 0x09#8 by decide, by decide⟩

private def hasPairs (d : Drawing Unit) (codec : ImageCodec Unit) : Bool :=
  match d.codePairs codec with
  | .ok _ => true
  | .error _ => false

/-- The hypotheses of `C62_saved` hold for the sample drawing. -/
example : ∃ codec : ImageCodec Unit, ∃ ps file, sampleDrawing.codePairs codec = .ok ps ∧
    (∀ p ∈ ps, -2 ^ 31 ≤ p.code ∧ p.code < 2 ^ 31) ∧ sampleDrawing.saveText codec = .ok file := by
  let codec : ImageCodec Unit := ⟨fun _ => .error .imageError, fun _ => .error .imageError⟩
  have h : hasPairs sampleDrawing codec = true := by decide +kernel
  unfold hasPairs at h
  cases hp : sampleDrawing.codePairs codec with
  | error e =>
    rw [hp] at h
    cases h
  | ok ps =>
    refine ⟨codec, ps, _, hp, fun p hm => ?_, by rw [saveText, hp]; rfl⟩
    have := C49_partial hp (fun p hp => by
      rw [show sampleDrawing.held = [] from rfl] at hp
      cases hp) (no_hours (sampleDrawing_faithful codec)) p hm
    have := expected_range this
    omega

/-- Blank lines before a whole file. -/
example : (∀ b ∈ [0x20#8, 0x09#8], Blank b) ∧ LineEnd [0x0D#8, 0x0A#8] := ⟨by simp [Blank], .inr rfl⟩

end Dxf
