import Verif.Lemmas.Corners

/-! The corners of light polylines are described in files as the DXF reference says (C80). -/

namespace Dxf

set_option maxRecDepth 20000 in
/-- C80: a light polyline is written with pairs that describe its corners, in their order; before and
after them there are no codes of corners.  (Extension groups may contain any codes.) -/
theorem C80_written {e : Entity} {ks : List Corner} (h : Corner.all e.toFlat = some ks)
    (he : e.entry.ext = []) (hz : ∀ k ∈ ks, k.Exact) {v : Version} (hv : .r14 ≤ v) (wh : Bool) :
    ∃ (pre : List CodePair) (segs : List (Corner × List CodePair)) (post : List CodePair),
      e.pairs v wh = .newStr 0 str!"LWPOLYLINE" :: (pre ++ segs.flatMap Prod.snd ++ post) ∧
      segs.map Prod.fst = ks ∧ (∀ s ∈ segs, Corner.Describes s.1 s.2) ∧
      (∀ p ∈ pre, p.code ∉ cornerCodes) ∧ ∀ p ∈ post, p.code ∉ cornerCodes := by
  obtain ⟨⟨k, n, y⟩, ⟨verts, atts, seqend, mtext⟩⟩ := e
  cases k
  case lwPolyline =>
    cases h
    obtain ⟨b, hb⟩ := lw_emit v y.fields
    refine ⟨emitAll (commonHead Ent.lwPolylineSpec wh) v y.fields ++
        (emitAll (commonCmds Ent.lwPolylineSpec wh) v y.fields ++
          emitAll (Ent.lwPolylineCmds.take 6) v y.fields),
      (LwRec.verts y.fields).map fun w => (w.corner, w.pairs b),
      emitAll (Ent.lwPolylineCmds.drop 8) v y.fields ++ y.xdata.flatMap fun x => x.pairs v, ?_, ?_, ?_, ?_, ?_⟩
    · have hs : EName.lwPolyline.supported v = true := by cases v <;> first | rfl | exact absurd hv (by decide)
      refine Eq.trans (b := EName.pairs .lwPolyline n v wh y []) rfl ?_
      have e1 : EName.pairs .lwPolyline n v wh y [] = .newStr 0 str!"LWPOLYLINE" ::
          (emitAll (commonHead Ent.lwPolylineSpec wh) v y.fields ++
            (if .r14 ≤ v then y.ext.flatMap ExtGroup.pairs else []) ++
            emitAll (commonCmds Ent.lwPolylineSpec wh ++ Ent.lwPolylineCmds) v y.fields) ++ [] ++
            y.xdata.flatMap fun x => x.pairs v := by
        unfold EName.pairs
        rw [if_pos hs]
        rfl
      exact e1.trans (lw_arrange y.fields he hb)
    · rw [List.map_map]
      rfl
    · intro s hs
      obtain ⟨w, hw, rfl⟩ := List.mem_map.mp hs
      exact describes_pairs (hz _ (List.mem_map_of_mem hw)) b
    · intro p hp
      obtain hp | hp := List.mem_append.mp hp
      · cases wh <;> exact emitAll_codes (by decide +kernel) _ _ p hp
      obtain hp | hp := List.mem_append.mp hp
      · cases wh <;> exact emitAll_codes (by decide +kernel) _ _ p hp
      · exact emitAll_codes (by decide +kernel) _ _ p hp
    · intro p hp
      obtain hp | hp := List.mem_append.mp hp
      · exact emitAll_codes (by decide +kernel) _ _ p hp
      · have := OName.xdata_codes y.xdata v p hp
        simp only [cornerCodes, List.mem_cons, List.not_mem_nil, or_false, not_or]
        omega
  all_goals cases h

/-- C80: a light polyline (LWPOLYLINE) that is read has the corners its pairs describe, in their order,
whatever other fields stand before and between them. -/
theorem C80_read {segs : List (Corner × List CodePair)} (hk : ∀ s ∈ segs, s.1.Describes s.2)
    {pre : List CodePair} (hp : ∀ p ∈ pre, p.code ∉ cornerCodes)
    (hf : ∀ p ∈ pre ++ segs.flatMap Prod.snd, FieldCode p.code) {op q : CodePair} (hop : op.code = 0)
    (hv : op.value = .str str!"LWPOLYLINE") (hq : q.code = 0) {c : List CodePair} {f : Flat} {t : Stream}
    (hx : nextEntity (toStream (op :: ((pre ++ segs.flatMap Prod.snd) ++ q :: c))) = (.ok (some f), t)) :
    Corner.all f = some (segs.map Prod.fst) := by
  have hc : ∀ p ∈ pre ++ segs.flatMap Prod.snd, plainCode p.code = true := fun p hp => by
    have := hf p hp
    simp only [FieldCode] at this
    simp only [plainCode, ne_eq, Bool.and_eq_true, decide_eq_true_eq]
    refine ⟨⟨⟨?_, ?_⟩, ?_⟩, ?_⟩ <;> omega
  rw [toStream_cons, toStream_append, toStream_cons] at hx
  obtain ⟨r, ext, xd, hr, rfl⟩ := nextEntity_fold (k := .lwPolyline) (fun _ => rfl) (fun _ _ => rfl)
    (fun _ => rfl) hop hv rfl ⟨by simp, by simp⟩ hc hq hx
  have hr : foldPairs Ent.lwPolylineArms (Rec.dflt (commonDecls ++ Ent.lwPolylineSpec))
      (pre ++ segs.flatMap Prod.snd) = .ok r := hr
  rw [foldPairs_append] at hr
  cases h1 : foldPairs Ent.lwPolylineArms (Rec.dflt (commonDecls ++ Ent.lwPolylineSpec)) pre with
  | error e => rw [h1] at hr; cases hr
  | ok r1 =>
    rw [h1] at hr
    have h2 := lw_corners hk hr
    rw [lw_before hp h1] at h2
    exact congrArg some h2

/-- A light polyline in a file: a corner with a bulge, and one whose end width stands before its y. -/
example (x y b x' y' w : F64) : ∃ f t,
    nextEntity (toStream (.newStr 0 str!"LWPOLYLINE" :: (([.newStr 8 str!"a", .newI32 90 2#32] ++
      [(⟨x, y, .zero, .zero, b⟩, [.newF64 10 x, .newF64 20 y, .newF64 42 b]),
       (⟨x', y', .zero, w, .zero⟩, [.newF64 10 x', .newF64 41 w, .newF64 20 y', .newStr 6 str!"l"])].flatMap
        (Prod.snd : Corner × List CodePair → _)) ++ .newStr 0 str!"ENDSEC" :: []))) = (.ok (some f), t) ∧
    Corner.all f = some [⟨x, y, .zero, .zero, b⟩, ⟨x', y', .zero, w, .zero⟩] := by
  refine ⟨_, _, rfl, ?_⟩
  refine C80_read (op := .newStr 0 str!"LWPOLYLINE") (q := .newStr 0 str!"ENDSEC") (c := [])
    (pre := [.newStr 8 str!"a", .newI32 90 2#32])
    (segs := [(⟨x, y, .zero, .zero, b⟩, [.newF64 10 x, .newF64 20 y, .newF64 42 b]),
       (⟨x', y', .zero, w, .zero⟩, [.newF64 10 x', .newF64 41 w, .newF64 20 y', .newStr 6 str!"l"])])
    ?_ ?_ ?_ rfl rfl rfl rfl
  · simp only [List.forall_mem_cons, List.not_mem_nil, false_imp_iff, implies_true, and_true]
    refine ⟨⟨_, _, rfl, rfl, rfl, ?_, rfl, .inr ⟨rfl, rfl⟩, .inr ⟨rfl, rfl⟩, .inl rfl⟩,
      ⟨_, _, rfl, rfl, rfl, ?_, rfl, .inr ⟨rfl, rfl⟩, .inl rfl, .inr ⟨rfl, rfl⟩⟩⟩ <;>
      simp [CodePair.newF64, CodePair.newStr]
  · simp [CodePair.newI32, CodePair.newStr, cornerCodes]
  · simp [FieldCode, CodePair.newF64, CodePair.newI32, CodePair.newStr]

/-- A light polyline with a corner that is not at 0. -/
example : Corner.all (Entity.new .lwPolyline ((Rec.dflt EName.lwPolyline.decls).set 21
      ([{ LwVertex.dflt with x := .unit, bulge := .unit }] : List LwVertex))).toFlat =
      some [⟨.unit, .zero, .zero, .zero, .unit⟩] ∧
    (⟨.unit, .zero, .zero, .zero, .unit⟩ : Corner).Exact := by
  refine ⟨rfl, ?_⟩
  simp only [Corner.Exact, List.forall_mem_cons, List.not_mem_nil, false_imp_iff, implies_true, and_true]
  exact ⟨trivial, trivial, fun h => absurd h (by decide +kernel)⟩

end Dxf
