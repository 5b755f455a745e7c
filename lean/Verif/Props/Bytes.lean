import Verif.Lemmas.Bytes
import Verif.Lemmas.BlindFile
import Verif.Lemmas.Reload
import Verif.Props.Codec
import Verif.Props.Reload
import Verif.Props.Typed

/-! C48: drawings are saved as bytes and loaded from them. -/

namespace Dxf

open Drawing

variable {Img : Type} {codec : ImageCodec Img} {h0 : Header} {d : Drawing Img}

theorem no_hours (hf : d.Faithful codec) :
    .r13 ≤ d.version → ∀ o ∈ d.objects, o.kind = .sunStudy → o.extra.hours = [] := by
  intro hv o ho hk
  have := (hf.objects hv o ho).1
  obtain ⟨k, e, x⟩ := o
  cases hk
  exact this.2

private theorem valOk_old {v : CodePairValue} (h : TextValue true v) : ValOk true .win1252 v := by
  cases v with
  | str s => exact strOk_old h
  | _ => trivial

private theorem valOk_new {v : CodePairValue} (h : TextValue false v) : ValOk false .utf8 v := by
  cases v with
  | str s => exact strOk_new h
  | _ => trivial

private theorem display_plain (v : Version) : ∀ c ∈ v.display,
    c ≠ '\\' ∧ c.toNat ≠ 0x1C ∧ c.toNat < 128 := by
  cases v <;> decide

private theorem mem_of_forall₂ {α β : Type} {R : α → β → Prop} {l : List α} {l' : List β}
    (h : List.Forall₂ R l l') {x : α} (hx : x ∈ l) : ∃ y ∈ l', R x y := by
  induction h with
  | nil => cases hx
  | cons hr _ ih =>
    rcases List.mem_cons.mp hx with rfl | hx
    · exact ⟨_, List.mem_cons_self, hr⟩
    · obtain ⟨y, hy, r⟩ := ih hx
      exact ⟨y, List.mem_cons_of_mem _ hy, r⟩

private theorem gives_type {v w : CodePairValue} (h : TextValue.Gives v w) : w.type = v.type := by
  rw [← textVal_gives h, textVal_type]

private theorem gives_text {old : Bool} {v w : CodePairValue} (h : TextValue.Gives v w)
    (hw : TextValue old w) : TextValue old v := by
  cases v with
  | str s => cases (show w = .str s from h); exact hw
  | _ => trivial

/-- C48 for text files: let `d'` be the drawing `d` with numbers rounded to twelve decimals.  What is
loaded from the bytes of the text file of `d` is what C42 says of `d'`.  Strings must be such that
the file can carry them (C07). -/
theorem C48_text_partial {d₀ : Drawing Img} (hfr : h0.Fresh) (order : List Str)
    (ho : 41 + 2 * order.length < 2 ^ 64) (hr : d₀.TextOf codec d)
    (hf : d.Faithful codec) (hroom : d.next.toNat + d.demand < 2 ^ 64)
    (hh : ∀ p ∈ d.held, p.WellTyped)
    (hv : ∀ ps, d.codePairs codec = .ok ps →
      ∀ p ∈ ps, TextValue (decide (d.version ≤ .r2004)) p.value) :
    ∃ file p d' d'', d₀.saveText codec = .ok file ∧
      loadBytes codec .win1252 h0 order file = .ok d'' ∧ d''.strip = d'.strip ∧
      d.Restored h0 p ∧ p.Completed d' := by
  obtain ⟨rs, p, d', h1, h2, h3, h4, h5, -⟩ := reload hfr order ho hf hroom
  obtain ⟨ps, h6, hps⟩ := hr.pairs rs h1
  have hwt : ∀ q ∈ ps, q.WellTyped := by
    intro q hq
    obtain ⟨r, hr', hc, hg⟩ := mem_of_forall₂ hps hq
    have := C49_partial h1 hh (no_hours hf) r hr'
    unfold CodePair.WellTyped at this ⊢
    rw [← hc, this, gives_type hg]
  have hv : ∀ q ∈ ps, TextValue (decide (d.version ≤ .r2004)) q.value := by
    intro q hq
    obtain ⟨r, hr', -, hg⟩ := mem_of_forall₂ hps hq
    exact gives_text hg (hv rs h1 r hr')
  obtain ⟨d0, hnew⟩ := new_ok (Img := Img) hfr order ho
  obtain ⟨qs, rfl⟩ := codePairs_start h6
  have hstrip := strip_expected 0 hps
  have ver := hr.version
  suffices hs : switched codec h0 order
      (TextIter.all ⟨utf8Encode (valueLine (decide (d₀.version ≤ .r2004))
        (CodePair.newStr 0 str!"SECTION").value ++ str!"\r\n") ++ writeAscii (decide (d₀.version ≤ .r2004)) (.newStr 2 str!"HEADER" ::
          .newStr 9 str!"$ACADVER" :: .newStr 1 d₀.version.display :: qs), .win1252,
        some (codeText (CodePair.newStr 0 str!"SECTION").code), 1⟩)
      (TextIter.all ⟨utf8Encode (valueLine (decide (d₀.version ≤ .r2004))
        (CodePair.newStr 0 str!"SECTION").value ++ str!"\r\n") ++ writeAscii (decide (d₀.version ≤ .r2004)) (.newStr 2 str!"HEADER" ::
          .newStr 9 str!"$ACADVER" :: .newStr 1 d₀.version.display :: qs), .utf8,
        some (codeText (CodePair.newStr 0 str!"SECTION").code), 1⟩) =
      (expectedPairs 0 (.newStr 0 str!"SECTION" :: .newStr 2 str!"HEADER" ::
        .newStr 9 str!"$ACADVER" :: .newStr 1 d₀.version.display :: qs)).map
          fun q => some (.ok q) by
    obtain ⟨d'', hl, he⟩ := load_like codec h0 order hstrip.symm (d := d') (by rw [h2])
    refine ⟨_, p, d', d'', by unfold saveText; rw [h6]; rfl, ?_, he, h4, h5⟩
    unfold loadBytes
    rw [fileItems_written]
    change (load codec h0 order (switched codec h0 order _ _)).1 = _
    exact (congrArg (fun s => (load codec h0 order s).1) hs).trans hl
  rw [ver] at hv
  by_cases hold : d₀.version ≤ .r2004
  · rw [decide_eq_true hold] at hv ⊢
    rw [all_written (.newStr 0 str!"SECTION") _ hwt fun q hq => valOk_old (hv q hq)]
    exact switched_none (loadUntil_same codec h0 order hstrip.symm (by rw [h3 (ver ▸ hold)])) _
  · have hn : Version.r2007 ≤ d₀.version := by
      generalize d₀.version = v at hold ⊢
      cases v <;> first | exact absurd (by decide) hold | decide
    rw [decide_eq_false hold] at hv ⊢
    rw [all_written (enc := .utf8) (.newStr 0 str!"SECTION") _ hwt fun q hq => valOk_new (hv q hq)]
    obtain ⟨fuel, hfuel, e⟩ := all_step (old := false) (enc := .win1252) (.newStr 0 str!"SECTION")
      (.newStr 2 str!"HEADER" :: .newStr 9 str!"$ACADVER" :: .newStr 1 d₀.version.display :: qs)
      (by decide) (strOk_mixed (by decide))
    simp only [List.length_cons] at hfuel
    obtain ⟨f, rfl⟩ : ∃ f, fuel = f + 3 := ⟨fuel - 3, by omega⟩
    rw [items_step (p := .newStr 2 str!"HEADER") _ (by decide) (strOk_mixed (by decide)),
      items_step (p := .newStr 9 str!"$ACADVER") _ (by decide) (strOk_mixed (by decide)),
      items_step (p := .newStr 1 d₀.version.display) _ (by exact (rfl : ExpectedType.new 1 = _))
        (strOk_mixed (display_plain _))] at e
    refine (congrArg (fun s => switched codec h0 order s _) e).trans ?_
    refine (switched_new hnew hn _ _ _ _ _ _).trans ?_
    rfl

/-- C48 for binary files: what is loaded from the bytes of a saved file is what C42 says, whatever
encoding the caller names.  Values must be such that the file can carry them (C08). -/
theorem C48_binary_partial (hfr : h0.Fresh) (enc : Enc) (order : List Str)
    (ho : 41 + 2 * order.length < 2 ^ 64)
    (hf : d.Faithful codec) (hroom : d.next.toNat + d.demand < 2 ^ 64)
    (hh : ∀ p ∈ d.held, p.WellTyped)
    (hv : ∀ ps, d.codePairs codec = .ok ps → ∀ p ∈ ps, BinOk (decide (.r13 ≤ d.version)) p.value) :
    ∃ file p d' d'', d.saveBinary codec = .ok file ∧
      loadBytes codec enc h0 order file = .ok d'' ∧ d''.strip = d'.strip ∧
      d.Restored h0 p ∧ p.Completed d' := by
  obtain ⟨ps, p, d', h1, h2, h3, h4, h5, -⟩ := reload hfr order ho hf hroom
  have hwt := C49_partial h1 hh (no_hours hf)
  have hv := hv ps h1
  obtain ⟨qs, rfl⟩ := codePairs_start h1
  obtain ⟨main, rs, e1, e2, e3⟩ := C08_roundtrip _ enc _ _ hwt hv (by
    unfold FirstOk
    split
    · rfl
    · exact .inr (by decide))
  obtain ⟨d'', hl, he⟩ := load_like codec h0 order (strip_eqPairs e3).symm (d := d') (by rw [h2])
  refine ⟨_, p, d', d'', by unfold saveBinary; rw [h1]; rfl, ?_, he, h4, h5⟩
  unfold loadBytes
  rw [e1]
  change (load codec h0 order (switched codec h0 order main main)).1 = _
  rw [switched_self, show main = rs.map fun q => some (.ok q) from e2]
  exact hl

/-- The values of a saved file can be carried by both kinds of files, and the text file of the other
drawing has the same values. -/
private def carried (codec : ImageCodec Unit) (d₀ d : Drawing Unit) : Bool :=
  match d₀.codePairs codec, d.codePairs codec with
  | .ok ps, .ok qs => (qs.all fun p => decide (TextValue (decide (d.version ≤ .r2004)) p.value) &&
      decide (BinOk (decide (.r13 ≤ d.version)) p.value)) &&
    decide (ps.map (fun p => (p.code, textVal p.value)) = qs.map fun p => (p.code, p.value))
  | _, _ => false

private theorem gives_textVal (v : CodePairValue) : TextValue.Gives v (textVal v) := by
  cases v with
  | double x => exact ⟨_, rfl, readsAs_textDouble x⟩
  | _ => rfl

private theorem carried_ok {codec : ImageCodec Unit} {d₀ d : Drawing Unit}
    (hver : d.version = d₀.version) (h : carried codec d₀ d = true) :
    d₀.TextOf codec d ∧ ∀ ps, d.codePairs codec = .ok ps →
      (∀ p ∈ ps, TextValue (decide (d.version ≤ .r2004)) p.value) ∧
      (∀ p ∈ ps, BinOk (decide (.r13 ≤ d.version)) p.value) := by
  unfold carried at h
  split at h
  · rename_i ps qs h1 h2
    simp only [Bool.and_eq_true, List.all_eq_true, decide_eq_true_eq] at h
    refine ⟨⟨hver, fun qs' h' => ⟨ps, h1, ?_⟩⟩, fun ps' h' => ?_⟩
    · cases h2.symm.trans h'
      have := h.2
      clear h h1 h2 h'
      induction ps generalizing qs with
      | nil => cases qs with
        | nil => exact .nil
        | cons q qs => cases this
      | cons p ps ih => cases qs with
        | nil => cases this
        | cons q qs =>
          simp only [List.map_cons, List.cons.injEq, Prod.mk.injEq] at this
          exact .cons ⟨this.1.1.symm, this.1.2 ▸ gives_textVal _⟩ (ih qs this.2)
    · cases h2.symm.trans h'
      exact ⟨fun p hp => (h.1 p hp).1, fun p hp => (h.1 p hp).2⟩
  · cases h

/-- The sample drawing with those numbers rounded that have more than twelve decimals: three angles
of the header, which are fractions of pi by default. -/
def sampleRounded : Drawing Unit := { sampleDrawing with
  header := Rec.set (Rec.set (Rec.set sampleDrawing.header 97 (⟨0x3fe921fb54441d52#64⟩ : F64))
    240 (⟨0x3ff921fb54442eea#64⟩ : F64)) 241 (⟨0x3ff921fb54442eea#64⟩ : F64) }

/-- The hypotheses of `C48_text_partial` and `C48_binary_partial` hold for the sample drawing. -/
example : ∃ codec : ImageCodec Unit, Header.Fresh (Rec.dflt _) ∧
    sampleDrawing.TextOf codec sampleRounded ∧ sampleRounded.Faithful codec ∧
    sampleRounded.next.toNat + sampleRounded.demand < 2 ^ 64 ∧
    (∀ p ∈ sampleRounded.held, p.WellTyped) ∧
    (∀ ps, sampleRounded.codePairs codec = .ok ps →
      (∀ p ∈ ps, TextValue (decide (sampleRounded.version ≤ .r2004)) p.value) ∧
      (∀ p ∈ ps, BinOk (decide (.r13 ≤ sampleRounded.version)) p.value)) := by
  have hf (codec : ImageCodec Unit) : sampleRounded.Faithful codec := by
    have := sampleDrawing_faithful codec
    exact { this with dates := this.dates }
  have h := carried_ok (codec := ⟨fun _ => .error .imageError, fun _ => .error .imageError⟩)
    (d₀ := sampleDrawing) (d := sampleRounded) rfl (by decide +kernel)
  refine ⟨_, fun _ _ => rfl, h.1, hf _, by decide, fun p hp => ?_, h.2⟩
  rw [show sampleRounded.held = [] from rfl] at hp
  cases hp

end Dxf
