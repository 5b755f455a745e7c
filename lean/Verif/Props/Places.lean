import Verif.Lemmas.Places

/-! C65: an error of loading says where the file is wrong. -/

namespace Dxf

open Drawing

variable {Img : Type}

/-- **C65**, for the results of any reader of pairs: if loading fails and the error names a place, then
it is one of the errors of the reader of pairs, or it complains about one of the pairs and names its
place.  The errors of the image decoder name no places. -/
theorem C65_pairs (codec : ImageCodec Img) (hc : ∀ b e, codec.load b = .error e → e.place = none)
    (h0 : Header) (order : List Str) (s : Stream) (hs : some (.error .outOfFuel) ∉ s) {e : DxfErr}
    (h : (load codec h0 order s).1 = .error e) {n : Nat} (hn : e.place = some n) :
    some (.error e) ∈ s ∨ ∃ p, some (.ok p) ∈ s ∧ e.About p := by
  have hf : Fine false s := fun it hm => ⟨fun h => hs (h ▸ hm), fun h => by cases h⟩
  rcases (load_tells hf codec hc h0 order s fun _ h => h).1 e h with h | h | h
  · exact .inl h
  · exact .inr h
  · rw [h] at hn; cases hn

theorem switched_mem (codec : ImageCodec Img) (h0 : Header) (order : List Str) (main alt : Stream)
    {it : Item} (h : it ∈ switched codec h0 order main alt) : it ∈ main ∨ it ∈ alt := by
  unfold switched at h
  split at h
  · rcases List.mem_append.mp h with h | h
    · exact .inl (List.mem_of_mem_take h)
    · exact .inr (List.mem_of_mem_drop h)
  · exact .inl h

/-- **C65**, for text files: if loading a file fails and the error names the place `n`, then it says
what is wrong with line `n` or with the pair that begins there. -/
theorem C65_partial (codec : ImageCodec Img) (hc : ∀ b e, codec.load b = .error e → e.place = none)
    (enc : Enc) (h0 : Header) (order : List Str) (file : List Byte)
    (hbin : (readLine true enc file).1 ≠ .ok str!"AutoCAD Binary DXF")
    (hdxb : (readLine true enc file).1 ≠ .ok str!"AutoCAD DXB 1.0") {e : DxfErr}
    (h : loadBytes codec enc h0 order file = .error e) {n : Nat} (hn : e.place = some n) :
    Points file e n := by
  have hz : Behind file 0 file := rfl
  obtain ⟨⟨l, h1, h2⟩, h3⟩ := readLine_behind hz true enc
  cases hr : (readLine true enc file).1 with
  | error x =>
    have : fileItems enc file = .error x := by unfold fileItems; dsimp only; rw [hr]
    unfold loadBytes at h
    rw [this] at h
    cases h
    rw [readLine_place hr] at hn
    cases hn
  | ok s =>
    have hi : fileItems enc file = .ok (some
        ((⟨(readLine true enc file).2, enc, some s, 1⟩ : TextIter).all,
          (⟨(readLine true enc file).2, .utf8, some s, 1⟩ : TextIter).all)) := by
      unfold fileItems newPairIter
      dsimp only
      rw [hr]
      dsimp only
      rw [if_neg fun hx => hdxb (hr.trans (congrArg _ hx)),
        if_neg fun hx => hbin (hr.trans (congrArg _ hx))]
      rfl
    unfold loadBytes at h
    rw [hi] at h
    dsimp only at h
    have ht : ∀ enc', Stands file ⟨(readLine true enc file).2, enc', some s, 1⟩ := fun enc' =>
      ⟨h3, fun s' hs' => by cases hs'; exact ⟨enc, l, h1, by rw [← h2, hr]⟩⟩
    have hw : ∀ it ∈ switched codec h0 order
        ((⟨(readLine true enc file).2, enc, some s, 1⟩ : TextIter).all)
        ((⟨(readLine true enc file).2, .utf8, some s, 1⟩ : TextIter).all), Traced file it := by
      intro it hm
      rcases switched_mem codec h0 order _ _ hm with hm | hm
      · exact items_traced _ (ht _) it hm
      · exact items_traced _ (ht _) it hm
    have hf : some (.error .outOfFuel) ∉ switched codec h0 order
        ((⟨(readLine true enc file).2, enc, some s, 1⟩ : TextIter).all)
        ((⟨(readLine true enc file).2, .utf8, some s, 1⟩ : TextIter).all) := by
      intro hm
      rcases hw _ hm with ⟨_, h⟩ | ⟨n, h, _⟩
      · exact h rfl
      · cases h
    rcases C65_pairs codec hc h0 order _ hf h hn with hm | ⟨p, hm, ha⟩
    · rcases hw _ hm with ⟨h, _⟩ | ⟨n', h, hp⟩
      · rw [h] at hn; cases hn
      · rw [hn] at h
        cases h
        exact hp
    · have hp : p.offset = n := by
        cases e
        all_goals first
          | exact ha.elim
          | (cases hn; exact ha.symm)
          | (cases hn; exact ha.2.symm)
          | (cases hn; exact congrArg _ (show _ = _ from ha).symm)
      rw [← hp]
      exact .pair p (hw _ hm) ha

/-! ### Examples and what goes wrong -/

/-- An image library that knows no images. -/
private def noImages : ImageCodec Unit := ⟨fun _ => .error .imageError, fun _ => .error .imageError⟩

/-- The error of loading a file. -/
private def failure (file : List Byte) : Option DxfErr :=
  match loadBytes noImages .win1252 (Rec.dflt _) [] file with
  | .ok _ => none
  | .error e => some e

private theorem failure_some {file : List Byte} {e : DxfErr} (h : failure file = some e) :
    loadBytes noImages .win1252 (Rec.dflt _) [] file = .error e := by
  unfold failure at h
  split at h
  · cases h
  · rename_i h'
    cases h
    exact h'

/-- A text file with a section that is ignored and with something in line 7 that is not a section. -/
private def strayPair : List Byte :=
  utf8Encode str!"0\nSECTION\n2\nFOO\n0\nENDSEC\n0\nBAR\n"

example : ∃ (codec : ImageCodec Unit) (h0 : Header) (file : List Byte) (e : DxfErr),
    (∀ b e, codec.load b = .error e → e.place = none) ∧
    (readLine true .win1252 file).1 ≠ .ok str!"AutoCAD Binary DXF" ∧
    (readLine true .win1252 file).1 ≠ .ok str!"AutoCAD DXB 1.0" ∧
    loadBytes codec .win1252 h0 [] file = .error e ∧ e.place = some 7 :=
  ⟨noImages, Rec.dflt _, strayPair, .unexpectedCodePair ⟨0, .str str!"BAR", 7⟩,
    fun _ _ h => by cases h; rfl, by decide +kernel, by decide +kernel,
    failure_some (by decide +kernel), rfl⟩

/-- C65: the error about a code that does not exist names the line after it, which holds nothing
wrong. -/
theorem C65_unknown : ∃ (file : List Byte),
    (linesOf file)[4]? = some (utf8Encode str!"5000") ∧
    loadBytes (Img := Unit) noImages .win1252 (Rec.dflt _) [] file =
      .error (.unexpectedEnumValue 6) :=
  ⟨utf8Encode str!"0\nSECTION\n2\nFOO\n5000\nx\n0\nENDSEC\n0\nEOF\n", by decide +kernel,
    failure_some (by decide +kernel)⟩

/-- C65 fails for binary files: the place of a pair is neither where it begins nor where it ends.
(The pair is in the bytes from 22 up to 27.) -/
theorem C65_violated : ∃ (file : List Byte) (p : CodePair), file.length = 27 ∧
    file.drop 22 = writeBinPair false p ∧
    loadBytes (Img := Unit) noImages .win1252 (Rec.dflt _) [] file =
      .error (.unexpectedCodePair p) ∧ p.offset = 25 :=
  ⟨writeBin false [⟨0, .str str!"FOO", 0⟩], ⟨0, .str str!"FOO", 25⟩, by decide +kernel,
    by decide +kernel, failure_some (by decide +kernel), rfl⟩

/-- C65 fails for binary files: after texts with characters beyond ASCII the places are behind the
end of the file. -/
theorem C65_drift : ∃ (file : List Byte) (p : CodePair), file.length = 50 ∧
    loadBytes (Img := Unit) noImages .win1252 (Rec.dflt _) [] file =
      .error (.unexpectedCodePair p) ∧ p.offset = 54 :=
  ⟨binPrelude ++ (writeBinPair false ⟨0, .str str!"SECTION", 0⟩ ++
      ([0x02#8, 0xE9#8, 0xE9#8, 0xE9#8, 0xE9#8, 0xE9#8, 0xE9#8, 0x00#8] ++
        (writeBinPair false ⟨0, .str str!"ENDSEC", 0⟩ ++ writeBinPair false ⟨0, .str str!"X", 0⟩))),
    ⟨0, .str str!"X", 54⟩, by decide +kernel, failure_some (by decide +kernel), rfl⟩

/-- C65: the error about the byte after the first line of a binary file names the byte that should be
there, and a place in the first line. -/
theorem C65_byte : ∃ (file : List Byte), file[20]? = some 0x58#8 ∧ file[18]? = some 0x0D#8 ∧
    loadBytes (Img := Unit) noImages .win1252 (Rec.dflt _) [] file =
      .error (.unexpectedByte 0x1A#8 18) :=
  ⟨utf8Encode str!"AutoCAD Binary DXF\r\nX", by decide +kernel, by decide +kernel,
    failure_some (by decide +kernel)⟩

end Dxf
