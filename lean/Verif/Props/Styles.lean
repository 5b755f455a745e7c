import Verif.Lemmas.Styles

/-! Text styles and line types are described in files as the DXF reference says (C81). -/

namespace Dxf

/-- C81: a text style is written as the DXF reference says: each code is there once, with the value.
(Extension groups may contain any codes.) -/
theorem C81_style_written {x : TableItem Tables.style} (he : x.ext = []) (v : Version) (wh : Bool) :
    ∀ p ∈ (StyleLook.of x).codes,
      (Tables.style.itemPairs v wh x).filter (fun q => decide (q.code = p.code)) = [p] := by
  intro p hp
  simp only [StyleLook.codes, List.mem_cons, List.not_mem_nil, or_false] at hp
  obtain rfl | rfl | rfl | rfl | rfl | rfl | rfl := hp
  · exact (withCode_item (K := Tables.style) (c := 2) v wh he (by decide) (by decide)).trans rfl
  · exact (withCode_item (K := Tables.style) (c := 40) v wh he (by decide) (by decide)).trans rfl
  · exact (withCode_item (K := Tables.style) (c := 41) v wh he (by decide) (by decide)).trans rfl
  · exact (withCode_item (K := Tables.style) (c := 50) v wh he (by decide) (by decide)).trans rfl
  · exact (withCode_item (K := Tables.style) (c := 42) v wh he (by decide) (by decide)).trans rfl
  · exact (withCode_item (K := Tables.style) (c := 3) v wh he (by decide) (by decide)).trans rfl
  · exact (withCode_item (K := Tables.style) (c := 4) v wh he (by decide) (by decide)).trans rfl

/-- C81: a text style that is read has what its pairs say by the DXF reference, in whatever order they
stand and whatever other fields there are. -/
theorem C81_style_read {l : StyleLook} {op q : CodePair} (hop : op.code = 0)
    (hv : op.value = .str str!"STYLE") {ps : List CodePair} (hf : ∀ p ∈ ps, FieldCode p.code)
    (hps : ∀ p ∈ l.codes, (ps.filter fun q => decide (q.code = p.code)).map CodePair.value = [p.value])
    (hq : q.code = 0) {c : List CodePair} {fuel : Nat} {xs : List (TableItem Tables.style)} {t : Stream}
    (hx : Tables.style.read fuel (toStream (op :: (ps ++ q :: c))) = (.ok xs, t)) :
    ∃ x rest, xs = x :: rest ∧ StyleLook.of x = l := by
  rw [toStream_cons, toStream_append, toStream_cons] at hx
  obtain ⟨x, rest, rfl, hr⟩ := table_fold (K := Tables.style) hop hv (plain_of hf) hq hx
  refine ⟨x, rest, rfl, ?_⟩
  obtain ⟨name, height, width, oblique, last, font, big⟩ := l
  have h0 := str_read (i := 0) (c := 2) (z := name) rfl (hps (.newStr 2 name) (by simp [StyleLook.codes])) hr
  have h1 := num_read (i := 3) (c := 40) (z := height) rfl
    (hps (.newF64 40 height) (by simp [StyleLook.codes])) hr
  have h2 := num_read (i := 4) (c := 41) (z := width) rfl
    (hps (.newF64 41 width) (by simp [StyleLook.codes])) hr
  have h3 := num_read (i := 5) (c := 50) (z := oblique) rfl
    (hps (.newF64 50 oblique) (by simp [StyleLook.codes])) hr
  have h4 := num_read (i := 7) (c := 42) (z := last) rfl
    (hps (.newF64 42 last) (by simp [StyleLook.codes])) hr
  have h5 := str_read (i := 8) (c := 3) (z := font) rfl (hps (.newStr 3 font) (by simp [StyleLook.codes])) hr
  have h6 := str_read (i := 9) (c := 4) (z := big) rfl (hps (.newStr 4 big) (by simp [StyleLook.codes])) hr
  change StyleLook.mk (x.fields 0) (x.fields 3) (x.fields 4) (x.fields 5) (x.fields 7) (x.fields 8)
    (x.fields 9) = _
  rw [show x.fields 0 = name from Option.some.inj h0, show x.fields 3 = height from Option.some.inj h1,
    show x.fields 4 = width from Option.some.inj h2, show x.fields 5 = oblique from Option.some.inj h3,
    show x.fields 7 = last from Option.some.inj h4, show x.fields 8 = font from Option.some.inj h5,
    show x.fields 9 = big from Option.some.inj h6]

/-- C81: a line type is written as the DXF reference says, with the lengths in their order. -/
theorem C81_lineType_written {x : TableItem Tables.lineType} (he : x.ext = []) (v : Version) (wh : Bool) :
    (∀ p ∈ (LineTypeLook.of x).codes,
      (Tables.lineType.itemPairs v wh x).filter (fun q => decide (q.code = p.code)) = [p]) ∧
    (Tables.lineType.itemPairs v wh x).filter (fun q => decide (q.code = 49)) =
      (LineTypeLook.of x).dashes.map (CodePair.newF64 49) := by
  refine ⟨?_, ?_⟩
  · intro p hp
    simp only [LineTypeLook.codes, List.mem_cons, List.not_mem_nil, or_false] at hp
    obtain rfl | rfl | rfl := hp
    · exact (withCode_item (K := Tables.lineType) (c := 2) v wh he (by decide) (by decide)).trans rfl
    · exact (withCode_item (K := Tables.lineType) (c := 3) v wh he (by decide) (by decide)).trans rfl
    · exact (withCode_item (K := Tables.lineType) (c := 40) v wh he (by decide) (by decide)).trans rfl
  · refine (withCode_item (K := Tables.lineType) (c := 49) v wh he (by decide) (by decide)).trans ?_
    have key : ∀ l : List F64, withCode 49 ((l.map (CodePair.newF64 49)) ++ []) =
        l.map (CodePair.newF64 49) := by
      intro l
      rw [List.append_nil]
      exact List.filter_eq_self.mpr fun p hp => by
        obtain ⟨z, -, rfl⟩ := List.mem_map.mp hp
        rfl
    exact key _

/-- C81: a line type that is read has what its pairs say by the DXF reference, with all the lengths in
their order. -/
theorem C81_lineType_read {l : LineTypeLook} {op q : CodePair} (hop : op.code = 0)
    (hv : op.value = .str str!"LTYPE") {ps : List CodePair} (hf : ∀ p ∈ ps, FieldCode p.code)
    (hps : ∀ p ∈ l.codes, (ps.filter fun q => decide (q.code = p.code)).map CodePair.value = [p.value])
    (hd : (ps.filter fun q => decide (q.code = 49)).map CodePair.value = l.dashes.map .double)
    (hq : q.code = 0) {c : List CodePair} {fuel : Nat} {xs : List (TableItem Tables.lineType)} {t : Stream}
    (hx : Tables.lineType.read fuel (toStream (op :: (ps ++ q :: c))) = (.ok xs, t)) :
    ∃ x rest, xs = x :: rest ∧ LineTypeLook.of x = l := by
  rw [toStream_cons, toStream_append, toStream_cons] at hx
  obtain ⟨x, rest, rfl, hr⟩ := table_fold (K := Tables.lineType) hop hv (plain_of hf) hq hx
  refine ⟨x, rest, rfl, ?_⟩
  obtain ⟨name, desc, len, dashes⟩ := l
  have h0 := str_read (i := 0) (c := 2) (z := name) rfl
    (hps (.newStr 2 name) (by simp [LineTypeLook.codes])) hr
  have h1 := str_read (i := 3) (c := 3) (z := desc) rfl
    (hps (.newStr 3 desc) (by simp [LineTypeLook.codes])) hr
  have h2 := num_read (i := 6) (c := 40) (z := len) rfl
    (hps (.newF64 40 len) (by simp [LineTypeLook.codes])) hr
  have h3 : x.fields 7 = dashes := dashes_fold hd hr
  change LineTypeLook.mk (x.fields 0) (x.fields 3) (x.fields 6) (x.fields 7) = _
  rw [show x.fields 0 = name from Option.some.inj h0, show x.fields 3 = desc from Option.some.inj h1,
    show x.fields 6 = len from Option.some.inj h2, h3]

/-- A text style in a file. -/
example (h w o k : F64) : ∃ xs t, Tables.style.read 9 (toStream (.newStr 0 str!"STYLE" :: ([.newF64 40 h,
      .newStr 4 str!"c", .newStr 3 str!"b", .newF64 42 k, .newI16 70 0#16, .newF64 50 o, .newF64 41 w,
      .newStr 2 str!"a"] ++ .newStr 0 str!"ENDTAB" :: []))) =
        (.ok xs, t) ∧ ∃ x rest, xs = x :: rest ∧ StyleLook.of x = ⟨str!"a", h, w, o, k, str!"b", str!"c"⟩ := by
  refine ⟨_, _, rfl, ?_⟩
  refine C81_style_read (l := ⟨str!"a", h, w, o, k, str!"b", str!"c"⟩) (op := .newStr 0 str!"STYLE")
    (q := .newStr 0 str!"ENDTAB") (c := []) (fuel := 9) (ps := [.newF64 40 h,
      .newStr 4 str!"c", .newStr 3 str!"b", .newF64 42 k, .newI16 70 0#16, .newF64 50 o, .newF64 41 w,
      .newStr 2 str!"a"]) rfl rfl ?_ ?_ rfl rfl
  · simp [FieldCode, CodePair.newI16, CodePair.newStr, CodePair.newF64]
  · repeat refine List.forall_mem_cons.mpr ⟨rfl, ?_⟩
    exact List.forall_mem_nil _

/-- A line type in a file, with a dash and a gap. -/
example (d g n : F64) : ∃ xs t, Tables.lineType.read 9 (toStream (.newStr 0 str!"LTYPE" ::
      ([.newF64 49 d, .newStr 3 str!"b", .newF64 40 n, .newF64 49 g, .newI16 74 0#16,
      .newStr 2 str!"a"] ++ .newStr 0 str!"ENDTAB" :: []))) =
        (.ok xs, t) ∧ ∃ x rest, xs = x :: rest ∧ LineTypeLook.of x = ⟨str!"a", str!"b", n, [d, g]⟩ := by
  refine ⟨_, _, rfl, ?_⟩
  refine C81_lineType_read (l := ⟨str!"a", str!"b", n, [d, g]⟩) (op := .newStr 0 str!"LTYPE")
    (q := .newStr 0 str!"ENDTAB") (c := []) (fuel := 9) (ps := [.newF64 49 d, .newStr 3 str!"b",
      .newF64 40 n, .newF64 49 g, .newI16 74 0#16, .newStr 2 str!"a"]) rfl rfl ?_ ?_ rfl rfl rfl
  · simp [FieldCode, CodePair.newI16, CodePair.newStr, CodePair.newF64]
  · repeat refine List.forall_mem_cons.mpr ⟨rfl, ?_⟩
    exact List.forall_mem_nil _

/-- C81 does not hold for the flags of text styles: a style for vertical text (or with any other flags)
is read as if it had none, and is written without. -/
theorem C81_violated (flags : I16) : ∃ x t,
    Tables.style.read 2 (toStream [.newStr 0 str!"STYLE", .newStr 2 str!"a", .newI16 70 flags,
      .newStr 3 str!"b", .newStr 0 str!"ENDTAB"]) = (.ok [x], t) ∧
    Tables.style.read 2 (toStream [.newStr 0 str!"STYLE", .newStr 2 str!"a", .newStr 3 str!"b",
      .newStr 0 str!"ENDTAB"]) = (.ok [x], t) ∧
    (∀ v wh, (Tables.style.itemPairs v wh x).filter (fun q => decide (q.code = 70)) =
      [.newI16 70 0#16]) ∧ (flags = verticalFlag → flags ≠ 0#16) := by
  refine ⟨_, _, rfl, rfl, fun v wh => ?_, ?_⟩
  · exact (withCode_item (K := Tables.style) (c := 70) v wh rfl (by decide) (by decide)).trans rfl
  · rintro rfl
    decide

end Dxf
