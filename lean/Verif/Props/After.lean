import Verif.Lemmas.AfterFile
import Verif.Props.Interrupted

/-! C66: what stands after the end of a file. -/

namespace Dxf

open Drawing

variable {Img : Type} {codec : ImageCodec Img}

/-- C66 for text files: when the last pair of a file is the mark at its end and the last line has a
line end, whatever bytes come after it, the same drawing is loaded. -/
theorem C66_text {enc : Enc} {h0 : Header} {order : List Str} {file : List Byte} {d : Drawing Img}
    (hline : EndsWithLine file) (hmark : EndsMarked enc file)
    (h : loadBytes codec enc h0 order file = .ok d) (more : List Byte) :
    loadBytes codec enc h0 order (file ++ more) = .ok d := by
  obtain ⟨c, rfl⟩ := hline
  obtain ⟨main, alt, hi, ⟨u, e, rfl, he⟩, ⟨u', e', rfl, he'⟩⟩ := hmark
  obtain ⟨r, r', hi'⟩ := fileItems_more (m := more) he he' hi
  have hl := fileItems_length hi
  simp only [List.length_append, List.length_cons, List.length_nil] at hl
  obtain ⟨hf, hf'⟩ := fine_file hi
  unfold loadBytes at h ⊢
  rw [hi] at h
  rw [hi']
  exact switched_after codec h0 order he he' (by omega) hf hf' h r r'

/-- C66 for binary files: when the last pair of a file is the mark at its end, whatever bytes come
after it, the same drawing is loaded. -/
theorem C66_binary {enc : Enc} {h0 : Header} {order : List Str} {bytes : List Byte}
    {d : Drawing Img} (hmark : EndsMarked enc (binPrelude ++ bytes))
    (h : loadBytes codec enc h0 order (binPrelude ++ bytes) = .ok d) (more : List Byte) :
    loadBytes codec enc h0 order (binPrelude ++ bytes ++ more) = .ok d := by
  obtain ⟨main, alt, hi, ⟨u, e, hu, he⟩, _⟩ := hmark
  have hf := (fine_file hi).1
  rw [fileItems_prelude] at hi
  have hi := (Prod.mk.inj (Option.some.inj (Except.ok.inj hi))).1
  rw [hu] at hi
  obtain ⟨r, hr⟩ := BinIter.items_more more _ ⟨bytes, false, false, 20⟩
    ((bytes ++ more).length + 1) (by simp) u e hi
  unfold loadBytes at h ⊢
  rw [fileItems_prelude] at h
  rw [List.append_assoc, fileItems_prelude]
  change (load codec h0 order (switched codec h0 order (BinIter.all _) (BinIter.all _))).1 = _ at h ⊢
  rw [switched_self] at h ⊢
  rw [hi] at h
  rw [show BinIter.all ⟨bytes ++ more, false, false, 20⟩ = u ++ some (.ok e) :: r from hr]
  exact load_after codec h0 order he (hu ▸ hf) h r

/-- C66 for DXB files: whatever bytes come after the end of a file that is loaded, the same drawing
is loaded. -/
theorem C66_dxb {enc : Enc} {h0 : Header} {order : List Str} {file : List Byte} {d : Drawing Img}
    (hdxb : (readLine true enc file).1 = .ok str!"AutoCAD DXB 1.0")
    (h : loadBytes codec enc h0 order file = .ok d) (more : List Byte) :
    loadBytes codec enc h0 order (file ++ more) = .ok d := by
  have items : ∀ f, (readLine true enc f).1 = .ok str!"AutoCAD DXB 1.0" →
      fileItems enc f = .ok none := by
    intro f hf
    unfold fileItems
    dsimp only
    rw [hf]
    dsimp only
    rw [if_pos rfl]
  have hl : loadDxb h0 order (readLine true enc file).2 = .ok d := by
    unfold loadBytes at h
    rw [items _ hdxb] at h
    exact h
  have hne : (readLine true enc file).2 ≠ [] := by
    intro he
    rw [he] at hl
    cases hl
  have hm := readLine_left true enc hne more
  unfold loadBytes
  rw [items _ (by rw [hm]; exact hdxb), hm]
  exact loadDxb_more hl more

/-- C66 for saved text files: whatever comes after a file that has been saved, the same drawing is
loaded, in any encoding. -/
theorem C66_saved_text {d d' : Drawing Img} {ps : List CodePair} {file : List Byte}
    (hps : d.codePairs codec = .ok ps) (hfile : d.saveText codec = .ok file)
    (hv : ∀ p ∈ ps, p.WellTyped) {enc : Enc} {h0 : Header} {order : List Str}
    (h : loadBytes codec enc h0 order file = .ok d') (more : List Byte) :
    loadBytes codec enc h0 order (file ++ more) = .ok d' := by
  unfold saveText at hfile
  rw [hps] at hfile
  obtain rfl := Except.ok.inj hfile
  obtain ⟨qs, h1⟩ := codePairs_end hps
  obtain ⟨rs, h2⟩ := codePairs_start hps
  obtain ⟨q, qs, rfl⟩ : ∃ q qs', qs = q :: qs' := by
    cases qs with
    | nil =>
      rw [h1] at h2
      cases h2
    | cons q qs => exact ⟨q, qs, rfl⟩
  subst h1
  refine C66_text (ends_text _ _ _) (marked_text _ enc fun p hp => ?_) h more
  rw [hv p (List.mem_append_left _ hp)]
  rfl

/-- C66 for saved binary files. -/
theorem C66_saved_binary {d d' : Drawing Img} {ps : List CodePair} {file : List Byte}
    (hps : d.codePairs codec = .ok ps) (hfile : d.saveBinary codec = .ok file)
    (hv : ∀ p ∈ ps, p.WellTyped ∧ BinOk (decide (.r13 ≤ d.version)) p.value)
    {enc : Enc} {h0 : Header} {order : List Str}
    (h : loadBytes codec enc h0 order file = .ok d') (more : List Byte) :
    loadBytes codec enc h0 order (file ++ more) = .ok d' := by
  unfold saveBinary at hfile
  rw [hps] at hfile
  obtain rfl := Except.ok.inj hfile
  obtain ⟨qs, h1⟩ := codePairs_end hps
  obtain ⟨rs, h2⟩ := codePairs_start hps
  obtain ⟨main, bs, e1, e2, e3⟩ := C08_roundtrip (decide (.r13 ≤ d.version)) enc
    (.newStr 0 str!"SECTION") _ (fun p hp => (hv p (h2 ▸ hp)).1) (fun p hp => (hv p (h2 ▸ hp)).2) (by
      unfold FirstOk
      split
      · rfl
      · exact .inr (by decide))
  rw [← h2] at e1 e3
  have hm : LastIsEof main := by
    rw [h1] at e3
    obtain ⟨a, b, -, h4, rfl⟩ := forall₂_split e3
    cases h4 with
    | cons h5 h6 =>
      cases h6
      exact ⟨_, _, by rw [show main = _ from e2, List.map_append]; rfl, h5.1.symm, h5.2.symm⟩
  exact C66_binary ⟨main, main, e1, hm, hm⟩ h more

private def noImages : ImageCodec Unit :=
  ⟨fun _ => .error .imageError, fun _ => .error .imageError⟩

/-- Whether a file is loaded. -/
private def loaded (file : List Byte) : Bool :=
  match loadBytes noImages .win1252 (Rec.dflt _) [] file with
  | .ok _ => true
  | .error _ => false

private theorem loaded_ok {file : List Byte} (h : loaded file = true) :
    ∃ d, loadBytes noImages .win1252 (Rec.dflt _) [] file = .ok d := by
  unfold loaded at h
  split at h
  · exact ⟨_, by assumption⟩
  · cases h

private theorem loaded_not {file : List Byte} (h : loaded file = false) :
    ∀ d, loadBytes noImages .win1252 (Rec.dflt _) [] file ≠ .ok d := by
  intro d hd
  unfold loaded at h
  rw [hd] at h
  cases h

/-- The line end after the mark is needed, and so is the mark: a file that is loaded is not loaded
any more when something is written directly behind the word, or when the mark is missing. -/
theorem C66_needed :
    (∃ file more, EndsMarked .win1252 file ∧
      (∃ d, loadBytes noImages .win1252 (Rec.dflt _) [] file = .ok d) ∧
      ∀ d, loadBytes noImages .win1252 (Rec.dflt _) [] (file ++ more) ≠ .ok d) ∧
    (∃ file more, EndsWithLine file ∧
      (∃ d, loadBytes noImages .win1252 (Rec.dflt _) [] file = .ok d) ∧
      ∀ d, loadBytes noImages .win1252 (Rec.dflt _) [] (file ++ more) ≠ .ok d) := by
  refine ⟨⟨utf8Encode str!"0\nEOF", utf8Encode str!"X\n", ?_, loaded_ok (by decide +kernel),
    loaded_not (by decide +kernel)⟩,
    ⟨utf8Encode str!"0\nSECTION\n2\nENTITIES\n0\nENDSEC\n", utf8Encode str!"X\n", ?_,
      loaded_ok (by decide +kernel), loaded_not (by decide +kernel)⟩⟩
  · refine ⟨_, _, rfl, ⟨[], _, rfl, ?_⟩, ⟨[], _, rfl, ?_⟩⟩ <;> exact ⟨by decide, rfl⟩
  · exact ⟨utf8Encode str!"0\nSECTION\n2\nENTITIES\n0\nENDSEC", by decide⟩

/-! ### The hypotheses can be met -/

/-- A text file with an entity. -/
example : ∃ file, EndsWithLine file ∧ EndsMarked .win1252 file ∧
    ∃ d, loadBytes noImages .win1252 (Rec.dflt _) [] file = .ok d := by
  refine ⟨utf8Encode str!"0\nSECTION\n2\nENTITIES\n0\nLINE\n0\nENDSEC\n0\nEOF\n",
    ⟨utf8Encode str!"0\nSECTION\n2\nENTITIES\n0\nLINE\n0\nENDSEC\n0\nEOF", by decide⟩, ?_,
    loaded_ok (by decide +kernel)⟩
  refine ⟨_, _, rfl, ⟨_ :: _ :: _ :: _ :: [], _, rfl, ?_⟩, ⟨_ :: _ :: _ :: _ :: [], _, rfl, ?_⟩⟩ <;>
    exact ⟨by decide, rfl⟩

/-- A DXB file. -/
example : ∃ file, (readLine true .win1252 file).1 = .ok str!"AutoCAD DXB 1.0" ∧
    ∃ d, loadBytes noImages .win1252 (Rec.dflt _) [] file = .ok d :=
  ⟨Dxb.sentinel ++ [2#8, 1#8, 0#8, 2#8, 0#8, 0#8], by decide +kernel,
    loaded_ok (by decide +kernel)⟩

/-- What has been saved is loaded. -/
private def saved (file : Except DxfErr (List Byte)) : Bool :=
  match file with
  | .ok file => loaded file
  | .error _ => false

/-- A drawing of version R10 with a line. -/
private def oneLine : Drawing Unit where
  header := Rec.set (Rec.dflt Header.decls) 0 (.r10 : Version)
  classes := []
  tables := fun _ => []
  blocks := []
  entities := [⟨⟨.line, 0, Entry.dflt _⟩, Extra.dflt⟩]
  objects := []
  thumbnail := none

private theorem saved_ok {ps : Except DxfErr (List CodePair)} {f : List CodePair → List Byte}
    (h : saved (ps.map f) = true) : ∃ qs, ps = .ok qs ∧
      ∃ d, loadBytes noImages .win1252 (Rec.dflt _) [] (f qs) = .ok d := by
  cases ps with
  | error e => cases h
  | ok qs => exact ⟨qs, rfl, loaded_ok h⟩

private def fits (ps : Except DxfErr (List CodePair)) : Bool :=
  match ps with
  | .ok ps => ps.all fun p => decide p.WellTyped && decide (BinOk false p.value)
  | .error _ => false

private theorem text_saved : saved (oneLine.saveText noImages) = true := by decide +kernel

private theorem binary_saved : saved (oneLine.saveBinary noImages) = true := by decide +kernel

private theorem pairs_fit : fits (oneLine.codePairs noImages) = true := by decide +kernel

/-- A drawing with a line, in text and binary files. -/
example : ∃ ps f1 f2, oneLine.codePairs noImages = .ok ps ∧
    oneLine.saveText noImages = .ok f1 ∧ oneLine.saveBinary noImages = .ok f2 ∧
    (∀ p ∈ ps, p.WellTyped ∧ BinOk (decide (.r13 ≤ oneLine.version)) p.value) ∧
    (∃ d, loadBytes noImages .win1252 (Rec.dflt _) [] f1 = .ok d) ∧
    (∃ d, loadBytes noImages .win1252 (Rec.dflt _) [] f2 = .ok d) ∧
    oneLine.entities ≠ [] := by
  obtain ⟨ps, h1, h2⟩ := saved_ok text_saved
  obtain ⟨qs, h3, h4⟩ := saved_ok binary_saved
  rw [h1] at h3
  cases h3
  have hv := pairs_fit
  rw [h1] at hv
  simp only [fits, List.all_eq_true, Bool.and_eq_true, decide_eq_true_eq] at hv
  exact ⟨ps, _, _, h1, by unfold saveText; rw [h1]; rfl, by unfold saveBinary; rw [h1]; rfl, hv, h2,
    h4, List.cons_ne_nil _ _⟩

end Dxf
