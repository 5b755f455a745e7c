import Verif.Lemmas.Look

/-! The common values of entities are described in files as the DXF reference says (C84). -/

namespace Dxf

/-- C84: every entity but the texts with several lines is written with its layer, line type, color, scale
of the line type, visibility and space as the DXF reference says.  (Versions before R13 have no code for
the scale and the visibility; extension groups may contain any codes.) -/
theorem C84_written {e : Entity} (hk : e.kind ≠ .mText) {v : Version} (hs : e.kind.supported v = true)
    (hv : .r13 ≤ v) (he : e.entry.ext = []) (wh : Bool) :
    (Look.of e.toFlat).Described (itsOwn (e.pairs v wh)) := by
  have h12 : versionGate (some .r12) none v = true := by
    cases v <;> first | rfl | exact absurd hv (by decide)
  have h13 : versionGate (some .r13) none v = true := by
    cases v <;> first | rfl | exact absurd hv (by decide)
  constructor
  · exact look_said (c := 8) (p := .newStr 8 (Look.of e.toFlat).layer) hk hs he wh (by decide) rfl rfl rfl
      (fun h => by cases h)
  · exact look_said (c := 6) (p := .newStr 6 (Look.of e.toFlat).lineType) hk hs he wh (by decide) rfl rfl rfl
      (fun h => by
        have h : (!decide ((Look.of e.toFlat).lineType = str!"BYLAYER")) = false := h
        simpa using h)
  · exact look_said (c := 62) (p := .newI16 62 (Look.of e.toFlat).color) hk hs he wh (by decide) rfl rfl rfl
      (fun h => by
        have h : (!decide ((Look.of e.toFlat).color = 256#16)) = false := h
        simpa using h)
  · exact look_said (c := 48) (p := .newF64 48 (Look.of e.toFlat).scale) hk hs he wh (by decide) rfl rfl rfl
      (fun h => by
        have h : (versionGate (some .r13) none v && !(F64.rustEq (Look.of e.toFlat).scale
          ⟨0x3ff0000000000000#64⟩)) = false := h
        rw [h13, Bool.true_and, Bool.not_eq_false'] at h
        exact rustEq_one h)
  · refine look_said (c := 60) (p := .newI16 60 (if (Look.of e.toFlat).visible then 0 else 1)) hk hs he wh
      (by decide) rfl ?_ rfl (fun h => ?_)
    · change [CodePair.newI16 60 (bif (Look.of e.toFlat).visible then 0 else 1)] = _
      cases (Look.of e.toFlat).visible <;> rfl
    · have h : (versionGate (some .r13) none v && !((Look.of e.toFlat).visible)) = false := h
      rw [h13] at h
      simpa using h
  · refine look_said (c := 67) (p := .newI16 67 (if (Look.of e.toFlat).paper then 1 else 0)) hk hs he wh
      (by decide) rfl ?_ rfl (fun h => ?_)
    · change [CodePair.newI16 67 (bif (Look.of e.toFlat).paper then 1 else 0)] = _
      cases (Look.of e.toFlat).paper <;> rfl
    · have h : (versionGate (some .r12) none v && (Look.of e.toFlat).paper) = false := h
      rw [h12] at h
      simpa using h

/-- C84: an entity of any type but dimensions and texts with several lines that is read has the layer, the
line type, the color, the scale of the line type, the visibility and the space that its pairs say by the
DXF reference, whatever other fields there are. -/
theorem C84_read {k : EName} (hk : k ≠ .mText) (hd : k ≠ .dimension) {l : Look} {op q : CodePair} {s : Str}
    (hop : op.code = 0) (hv : op.value = .str s) (hs : EName.ofType s = some k)
    {ps : List CodePair} (hf : ∀ p ∈ ps, FieldCode p.code) (hl : l.Described ps) (hq : q.code = 0)
    {c : List CodePair} {f : Flat} {t : Stream}
    (hx : nextEntity (toStream (op :: (ps ++ q :: c))) = (.ok (some f), t)) :
    f.kind = k ∧ Look.of f = l := by
  rw [toStream_cons, toStream_append, toStream_cons] at hx
  obtain ⟨r, ext, xd, hr, rfl⟩ := nextEntity_steps hd hop hv hs
    ⟨fun e => (by rw [e] at hs; cases hs), fun e => (by rw [e] at hs; cases hs)⟩
    (plain_of hf) hq hx
  exact ⟨rfl, look_steps hk hl hr⟩

/-- A polyline with any vertices, in paper space and invisible. -/
example (z : F64) (n : Str) (x : Extra) : ∃ e : Entity, e.kind = .polyline ∧ e.extra = x ∧
    e.entry.ext = [] ∧ e.kind.supported .r2000 = true ∧
    Look.of e.toFlat = ⟨n, str!"BYLAYER", 256#16, z, false, true⟩ :=
  ⟨⟨⟨.polyline, 0, ⟨((((Rec.dflt EName.polyline.decls).set 3 (n : Str)).set 9 (z : F64)).set 10
    (false : Bool)).set 2 (true : Bool), [], []⟩⟩, x⟩, rfl, rfl, rfl, rfl, rfl⟩

/-- An entity in a file that says something about its look, and leaves other things open. -/
example (n : Str) (p : Point) : ∃ f t,
    nextEntity (toStream (.newStr 0 str!"POINT" :: ((p.coded 10 ++ [.newI16 62 3#16, .newStr 8 n, .newI16 60 1#16]) ++
      .newStr 0 str!"ENDSEC" :: []))) = (.ok (some f), t) ∧
    Look.of f = ⟨n, str!"BYLAYER", 3#16, ⟨0x3ff0000000000000#64⟩, false, false⟩ := by
  refine ⟨_, _, rfl, ?_⟩
  refine (C84_read (k := .modelPoint) (by decide) (by decide) (op := .newStr 0 str!"POINT")
    (q := .newStr 0 str!"ENDSEC") (c := []) (ps := p.coded 10 ++ [.newI16 62 3#16, .newStr 8 n, .newI16 60 1#16])
    rfl rfl rfl ?_ ⟨.inl rfl, .inr ⟨rfl, rfl⟩, .inl rfl, .inr ⟨rfl, rfl⟩, .inl rfl, .inr ⟨rfl, rfl⟩⟩ rfl rfl).2
  simp [FieldCode, Point.coded, CodePair.newF64, CodePair.newI16, CodePair.newStr]

/-- C84 is not true of texts with several lines: the scale of their line type is taken for another value. -/
theorem C84_violated : ∃ (ps : List CodePair) (l : Look) (f : Flat) (t : Stream), l.Described ps ∧
    (∀ p ∈ ps, FieldCode p.code) ∧
    nextEntity (toStream (.newStr 0 str!"MTEXT" :: (ps ++ .newStr 0 str!"ENDSEC" :: []))) = (.ok (some f), t) ∧
    Look.of f ≠ l := by
  refine ⟨[.newF64 48 ⟨0x4000000000000000#64⟩],
    ⟨str!"0", str!"BYLAYER", 256#16, ⟨0x4000000000000000#64⟩, true, false⟩, _, _,
    ⟨.inr ⟨rfl, rfl⟩, .inr ⟨rfl, rfl⟩, .inr ⟨rfl, rfl⟩, .inl rfl, .inr ⟨rfl, rfl⟩, .inr ⟨rfl, rfl⟩⟩,
    by simp [FieldCode, CodePair.newF64], rfl, fun h => ?_⟩
  have h := congrArg Look.scale h
  revert h
  decide +kernel

end Dxf
