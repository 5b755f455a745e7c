import Verif.Lemmas.SafeBytes
import Verif.Props.Dxb

/-! C51: loading does not panic. -/

namespace Dxf

open Drawing

variable {Img : Type} {codec : ImageCodec Img} {h0 : Header} {order : List Str}

/-! ### Loading without a panic -/

/-- C51: loading gives a drawing or an error, but does not panic, if none of the causes listed in
`Harmless` is in the stream of pairs.  What is missing is what `Harmless` excludes; each of these
causes does lead to a panic, see below. -/
theorem C51_partial (hcodec : ∀ b, codec.load b ≠ .error .panic) (hf : h0.Fresh)
    (ho : 41 + 2 * order.length < 2 ^ 64) (s : Stream) (hl : 1 + 18 * s.length < 2 ^ 64)
    (hs : Harmless (18 * s.length) s) : (load codec h0 order s).1 ≠ .error .panic :=
  load_sane codec hcodec hf order ho s hl hs

/-- The readers of pairs do not panic and do not run forever, whatever the bytes of the file are. -/
theorem C51_pairs (enc : Enc) (file : List Byte) :
    fileItems enc file ≠ .error .panic ∧ fileItems enc file ≠ .error .outOfFuel ∧
    ∀ main alt, fileItems enc file = .ok (some (main, alt)) →
      ∀ e, some (.error e) ∈ main ++ alt → e ≠ .panic ∧ e ≠ .outOfFuel := by
  obtain ⟨h1, h2⟩ := fileItems_good enc file
  refine ⟨fun h => h1 _ h (.inl rfl), fun h => h1 _ h (.inr rfl), fun main alt h e he => ?_⟩
  obtain ⟨hm, ha, -⟩ := h2 main alt h
  rcases List.mem_append.mp he with he | he
  · exact not_or.mp (hm e he)
  · exact not_or.mp (ha e he)

/-- C51 for the bytes of a file (DXF as text, DXF as binary, or DXB). -/
theorem C51_bytes_partial (hcodec : ∀ b, codec.load b ≠ .error .panic) (hf : h0.Fresh)
    (ho : 41 + 2 * order.length < 2 ^ 64) (enc : Enc) (file : List Byte)
    (hl : file.length < 2 ^ 58)
    (hs : ∀ main alt, fileItems enc file = .ok (some (main, alt)) →
      Harmless (18 * (switched codec h0 order main alt).length)
        (switched codec h0 order main alt)) :
    loadBytes codec enc h0 order file ≠ .error .panic := by
  unfold loadBytes
  cases hi : fileItems enc file with
  | error e =>
    intro hc
    cases hc
    exact (C51_pairs enc file).1 hi
  | ok r =>
    cases r with
    | none =>
      have hd := C47 (Img := Img) hf order ho enc file hl
      unfold fileItems at hi
      unfold loadDxbFile at hd
      dsimp only at hi hd ⊢
      rcases hr : readLine true enc file with ⟨e | l, rest⟩
      · rw [hr] at hi; cases hi
      · rw [hr] at hi hd
        dsimp only at hi hd ⊢
        by_cases hx : l = str!"AutoCAD DXB 1.0"
        · rw [if_pos hx] at hd
          intro hc
          rw [hc] at hd
          exact hd.1 rfl
        · rw [if_neg hx] at hi
          cases hn : newPairIter enc l rest with
          | error e => rw [hn] at hi; cases hi
          | ok a => rw [hn] at hi; cases hi
    | some r =>
      obtain ⟨main, alt⟩ := r
      obtain ⟨-, -, h1, h2⟩ := (fileItems_good enc file).2 main alt hi
      have h3 := switched_length_le codec h0 order main alt
      exact C51_partial hcodec hf ho _ (by omega) (hs main alt hi)

/-- A pair that is harmless wherever it stands. -/
def CodePair.Mild (room : Nat) (p : CodePair) : Prop :=
  p.value ≠ .short (-32768) ∧ p.value ≠ .boolean (-32768) ∧
  p.value ≠ .str str!"DATATABLE" ∧ p.value ≠ .str str!"THUMBNAILIMAGE" ∧
  (∀ f, p.value = .double f → DayNumber f) ∧
  (∀ n, p.value = .integer n → n.toInt ≤ lastSunDay) ∧
  ∀ h, p.asHandle = .ok h → h.toNat + room < 2 ^ 64

/-- C51 for files with small numbers: no 16-bit number is -32768, no 32-bit number and no
floating-point number is too large for a day, no handle comes near the last one, and there are
neither data tables nor a thumbnail. -/
theorem C51_mild_partial (hcodec : ∀ b, codec.load b ≠ .error .panic) (hf : h0.Fresh)
    (ho : 41 + 2 * order.length < 2 ^ 64) (s : Stream) (hl : 1 + 18 * s.length < 2 ^ 64)
    (hi : some (.error .panic) ∉ s)
    (hs : ∀ p, some (.ok p) ∈ s → p.Mild (18 * s.length)) :
    (load codec h0 order s).1 ≠ .error .panic := by
  have hin {type : Str} {b : Stream} {q : CodePair} (h : InItem s type b q) :
      q.Mild (18 * s.length) ∧ type ≠ str!"DATATABLE" := by
    obtain ⟨x, p, y, rfl, -, hp, -⟩ := h
    refine ⟨hs q (by simp), ?_⟩
    rintro rfl
    exact (hs p (by simp)).2.2.1 hp
  have hval {n : Str} {q : CodePair} (h : ValueOf s n q) : q.Mild (18 * s.length) := by
    obtain ⟨x, p, m, y, rfl, -⟩ := h
    exact hs q (by simp)
  refine C51_partial hcodec hf ho s hl ⟨hi, ?_, ?_, ?_, ?_, ?_, ?_, ?_, ?_⟩
  · exact fun b q h _ => ⟨(hin h).1.1, (hin h).1.2.1⟩
  · exact fun b q h => absurd rfl (hin h).2
  · exact fun b q f h _ hv => (hin h).1.2.2.2.2.1 f hv
  · exact fun b q f h _ hv => (hin h).1.2.2.2.2.1 f hv
  · exact fun b q n h _ hv => (hin h).1.2.2.2.2.2.1 n hv
  · exact fun name _ q f h hv => (hval h).2.2.2.2.1 f hv
  · exact fun q x h hv => (hval h).2.2.2.2.2.2 x hv
  · rintro x p y b rfl - hv -
    exact absurd hv (hs p (by simp)).2.2.2.1

private def small (p : CodePair) : Bool :=
  decide (p.value ≠ .short (-32768)) && decide (p.value ≠ .boolean (-32768)) &&
  decide (p.value ≠ .str str!"DATATABLE") && decide (p.value ≠ .str str!"THUMBNAILIMAGE") &&
  (match p.value with
    | .double f => !f.isInf && (!f.isFinite || decide (f.sunits.natAbs ≤ 97466824 * F64.oneUnits))
    | .integer n => decide (n.toInt ≤ lastSunDay)
    | _ => true) &&
  match p.asHandle with
  | .ok h => decide (h.toNat < 2 ^ 63)
  | .error _ => true

private theorem mild_of_small {p : CodePair} {room : Nat} (h : small p = true)
    (hr : room ≤ 2 ^ 63) : p.Mild room := by
  unfold small at h
  simp only [Bool.and_eq_true, decide_eq_true_eq] at h
  obtain ⟨⟨⟨⟨⟨h1, h2⟩, h3⟩, h4⟩, h5⟩, h6⟩ := h
  refine ⟨h1, h2, h3, h4, fun f hf => ?_, fun n hn => ?_, fun x hx => ?_⟩
  · rw [hf] at h5
    simp only [Bool.and_eq_true, Bool.not_eq_true', Bool.or_eq_true, decide_eq_true_eq] at h5
    refine ⟨h5.1, fun hfin => ?_⟩
    rcases h5.2 with h | h
    · rw [hfin] at h; cases h
    · exact h
  · rw [hn] at h5
    exact of_decide_eq_true h5
  · rw [hx] at h6
    have := of_decide_eq_true h6
    omega

/-- A file with a date, a handle seed, a layer, a block of lines and an index with a date: loading
it does not panic. -/
private def mildFile : List CodePair := [
  .newStr 0 str!"SECTION", .newStr 2 str!"HEADER", .newStr 9 str!"$TDCREATE",
  .newF64 40 ⟨0x4142c3c000000000#64⟩, .newStr 9 str!"$HANDSEED", .newStr 5 str!"1F",
  .newStr 0 str!"ENDSEC",
  .newStr 0 str!"SECTION", .newStr 2 str!"TABLES", .newStr 0 str!"TABLE", .newStr 2 str!"LAYER",
  .newStr 0 str!"LAYER", .newStr 2 str!"0", .newI16 62 (-7), .newStr 0 str!"ENDTAB",
  .newStr 0 str!"ENDSEC",
  .newStr 0 str!"SECTION", .newStr 2 str!"BLOCKS", .newStr 0 str!"BLOCK", .newStr 2 str!"b",
  .newStr 0 str!"LINE", .newF64 10 ⟨0x3ff0000000000000#64⟩, .newStr 0 str!"ENDBLK",
  .newStr 0 str!"ENDSEC",
  .newStr 0 str!"SECTION", .newStr 2 str!"OBJECTS", .newStr 0 str!"LAYER_INDEX",
  .newF64 40 ⟨0x4142c3c000000000#64⟩, .newStr 0 str!"ENDSEC", .newStr 0 str!"EOF"]

example (hcodec : ∀ b, codec.load b ≠ .error .panic) (hf : h0.Fresh) :
    (load codec h0 [] (toStream mildFile)).1 ≠ .error .panic := by
  refine C51_mild_partial hcodec hf (by decide) _ (by decide) (by simp [toStream]) fun p hp => ?_
  have hm : p ∈ mildFile := by simpa [toStream] using hp
  have h : ∀ p ∈ mildFile, small p = true := by decide +kernel
  exact mild_of_small (h p hm) (by decide)

/-! ### What does panic -/

section

variable {d : Drawing Img} (h : Drawing.new h0 order = .ok d)
include h

/-- C51 fails: the colour -32768 of a layer has no absolute value. -/
theorem C51_color : (load codec h0 order (toStream [
    .newStr 0 str!"SECTION", .newStr 2 str!"TABLES", .newStr 0 str!"TABLE", .newStr 2 str!"LAYER",
    .newStr 0 str!"LAYER", .newI16 62 (-32768), .newStr 0 str!"ENDTAB", .newStr 0 str!"ENDSEC",
    .newStr 0 str!"EOF"])).1 = .error .panic := by
  unfold load
  rw [h]
  rfl

/-- C51 fails: a data table that gives its number of rows twice. -/
theorem C51_table : (load codec h0 order (toStream [
    .newStr 0 str!"SECTION", .newStr 2 str!"OBJECTS", .newStr 0 str!"DATATABLE", .newI32 90 1,
    .newI32 91 0, .newI32 91 1, .newI16 71 1, .newStr 0 str!"ENDSEC",
    .newStr 0 str!"EOF"])).1 = .error .panic := by
  unfold load
  rw [h]
  rfl

omit h in
private theorem bind_panic {α β : Type} {m : Rd α} {f : α → Rd β} {st : Stream}
    (hm : (m st).1 = .error .panic) : ((m >>= f) st).1 = .error .panic := by
  rw [Rd.run_bind]
  rcases hx : m st with ⟨x, t⟩
  rw [hx] at hm
  cases hm
  rfl

/-- A panic in the first section. -/
private theorem first_section {name : Str} {rest : Stream}
    (hp : (readSection codec h0 name d.clear rest).1 = .error .panic) :
    (load codec h0 order (toStream [.newStr 0 str!"SECTION", .newStr 2 name] ++ rest)).1 =
      .error .panic := by
  unfold load
  rw [h]
  refine bind_panic (m := Rd.withFuel fun fuel => readSections codec h0 fuel d.clear) ?_
  exact bind_panic (m := readSection codec h0 name d.clear) hp

private theorem in_objects {rest : Stream}
    (hp : (readObjects rest).1.map List.length = .error .panic) :
    (load codec h0 order (toStream [.newStr 0 str!"SECTION", .newStr 2 str!"OBJECTS"] ++ rest)).1 =
      .error .panic := by
  refine first_section h ?_
  refine bind_panic (m := readObjects) ?_
  cases hx : (readObjects rest).1 with
  | ok a => rw [hx] at hp; cases hp
  | error e => rw [hx] at hp; cases hp; rfl

/-- C51 fails: a day of a sun study after the end of the calendar. -/
theorem C51_study : (load codec h0 order (toStream [
    .newStr 0 str!"SECTION", .newStr 2 str!"OBJECTS", .newStr 0 str!"SUNSTUDY", .newI32 90 1,
    .newI32 90 97466825, .newI32 90 0, .newStr 0 str!"ENDSEC",
    .newStr 0 str!"EOF"])).1 = .error .panic :=
  in_objects h (rest := toStream [.newStr 0 str!"SUNSTUDY", .newI32 90 1,
    .newI32 90 97466825, .newI32 90 0, .newStr 0 str!"ENDSEC", .newStr 0 str!"EOF"])
    (by decide +kernel)

/-- C51 fails: the date of a layer index (97466825 days) is after the end of the calendar. -/
theorem C51_layerIndex : (load codec h0 order (toStream [
    .newStr 0 str!"SECTION", .newStr 2 str!"OBJECTS", .newStr 0 str!"LAYER_INDEX",
    .newF64 40 ⟨0x41973ce724000000#64⟩, .newStr 0 str!"ENDSEC",
    .newStr 0 str!"EOF"])).1 = .error .panic :=
  in_objects h (rest := toStream [.newStr 0 str!"LAYER_INDEX",
    .newF64 40 ⟨0x41973ce724000000#64⟩, .newStr 0 str!"ENDSEC", .newStr 0 str!"EOF"])
    (by decide +kernel)

/-- The same for a spatial index. -/
theorem C51_spatialIndex : (load codec h0 order (toStream [
    .newStr 0 str!"SECTION", .newStr 2 str!"OBJECTS", .newStr 0 str!"SPATIAL_INDEX",
    .newF64 40 ⟨0x41973ce724000000#64⟩, .newStr 0 str!"ENDSEC",
    .newStr 0 str!"EOF"])).1 = .error .panic :=
  in_objects h (rest := toStream [.newStr 0 str!"SPATIAL_INDEX",
    .newF64 40 ⟨0x41973ce724000000#64⟩, .newStr 0 str!"ENDSEC", .newStr 0 str!"EOF"])
    (by decide +kernel)

omit h in
private theorem dates_panic {name : Str} (hn : name ∈ dateVariables) (r : Header) :
    setHeaderValue Header.vars name (.newF64 40 ⟨0x41973ce724000000#64⟩) r = .error .panic := by
  have hd : Date.ofDouble ⟨0x41973ce724000000#64⟩ = .error .panic := by decide +kernel
  have key (f : F64) (hd : Date.ofDouble f = .error .panic) :
      setHeaderValue Header.vars name (.newF64 40 f) r = .error .panic := by
    have : ∃ i, ∃ hi : tyAt Header.decls i = .date,
        setHeaderValue Header.vars name (.newF64 40 f) r =
          (Date.ofDouble f).map fun v => r.set i (hi ▸ v) := by
      simp only [dateVariables, List.mem_cons, List.not_mem_nil, or_false] at hn
      rcases hn with rfl | rfl | rfl | rfl
      · exact ⟨122, rfl, rfl⟩
      · exact ⟨123, rfl, rfl⟩
      · exact ⟨124, rfl, rfl⟩
      · exact ⟨125, rfl, rfl⟩
    obtain ⟨i, hi, e⟩ := this
    rw [e, hd]
    rfl
  exact key _ hd

/-- C51 fails: a date in the header is after the end of the calendar. -/
theorem C51_date {name : Str} (hn : name ∈ dateVariables) : (load codec h0 order (toStream [
    .newStr 0 str!"SECTION", .newStr 2 str!"HEADER", .newStr 9 name,
    .newF64 40 ⟨0x41973ce724000000#64⟩, .newStr 0 str!"ENDSEC",
    .newStr 0 str!"EOF"])).1 = .error .panic := by
  refine first_section h (rest := toStream [.newStr 9 name,
    .newF64 40 ⟨0x41973ce724000000#64⟩, .newStr 0 str!"ENDSEC", .newStr 0 str!"EOF"]) ?_
  refine bind_panic (m := Header.read h0) ?_
  refine bind_panic (m := Rd.withFuel fun n => headerValues Header.vars name n h0) ?_
  exact bind_panic (m := Rd.lift (setHeaderValue Header.vars name _ h0)) (dates_panic hn h0)

/-- C51 fails: the next available handle is the last one, and something without a handle
follows. -/
theorem C51_handle : (load codec h0 order (toStream [
    .newStr 0 str!"SECTION", .newStr 2 str!"HEADER", .newStr 9 str!"$HANDSEED",
    .newStr 5 str!"FFFFFFFFFFFFFFFF", .newStr 0 str!"ENDSEC",
    .newStr 0 str!"SECTION", .newStr 2 str!"TABLES", .newStr 0 str!"TABLE", .newStr 2 str!"STYLE",
    .newStr 0 str!"STYLE", .newStr 2 str!"A", .newStr 0 str!"ENDTAB", .newStr 0 str!"ENDSEC",
    .newStr 0 str!"EOF"])).1 = .error .panic := by
  unfold load
  rw [h]
  rfl

/-- C51 fails: the size of the second header of a thumbnail is −1. -/
theorem C51_picture : (load codec h0 order (toStream [
    .newStr 0 str!"SECTION", .newStr 2 str!"THUMBNAILIMAGE", .newI32 90 54,
    ⟨310, .binary (List.replicate 4 0xFF#8 ++ List.replicate 50 0#8), 0⟩, .newStr 0 str!"ENDSEC",
    .newStr 0 str!"EOF"])).1 = .error .panic := by
  unfold load
  rw [h]
  rfl

end

end Dxf
