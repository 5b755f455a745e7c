import Verif.Lemmas.Splines

/-! Splines are described in files as the DXF reference says (C83). -/

namespace Dxf

set_option maxRecDepth 20000 in
/-- C83: a spline is written as the DXF reference says: the degree under code 71, the knots under 40 and
the weights under 41, each in their order, and the control points under 10, 20 and 30 and the fit points
under 11, 21 and 31, point after point.  (Extension groups may contain any codes.) -/
theorem C83_written {e : Entity} {k : Curve} (h : k.In e.toFlat) (he : e.entry.ext = []) {v : Version}
    (hv : .r13 ≤ v) (wh : Bool) :
    (e.pairs v wh).head? = some (.newStr 0 str!"SPLINE") ∧
    (e.pairs v wh).filter (fun p => decide (p.code = 71)) = [.newI16 71 k.degree] ∧
    (e.pairs v wh).filter (fun p => decide (p.code = 40)) = k.knots.map (CodePair.newF64 40) ∧
    (e.pairs v wh).filter (fun p => decide (p.code = 41)) = k.weights.map (CodePair.newF64 41) ∧
    (e.pairs v wh).filter (fun p => decide (p.code ∈ [10, 20, 30])) = Curve.points 10 k.control ∧
    (e.pairs v wh).filter (fun p => decide (p.code ∈ [11, 21, 31])) = Curve.points 11 k.fit := by
  obtain ⟨⟨m, n, y⟩, ⟨verts, atts, seqend, mtext⟩⟩ := e
  cases m
  case spline =>
    obtain ⟨degree, knots, weights, control, fit⟩ := k
    obtain ⟨h1, h2, h3, h4, h5⟩ := h
    have hs : EName.spline.supported v = true := by cases v <;> first | rfl | exact absurd hv (by decide)
    have many : ∀ (c : Int) (l : List F64), withCode c (l.map (CodePair.newF64 c) ++ []) =
        l.map (CodePair.newF64 c) := by
      intro c l
      rw [List.append_nil]
      exact List.filter_eq_self.mpr fun p hp => by
        obtain ⟨z, -, rfl⟩ := List.mem_map.mp hp
        simp [CodePair.newF64]
    refine ⟨pairs_head hs _ _ _ _, ?_, ?_, ?_, ?_, ?_⟩
    · refine (withCode_pairs (k := .spline) (c := 71) hs _ wh he (by decide) (by decide)).trans ?_
      refine Eq.trans (b := [CodePair.newI16 71 ((y.fields 20 : I32).setWidth 16)]) rfl ?_
      rw [show (y.fields 20 : I32) = _ from h1, trunc_sign]
    · refine (withCode_pairs (k := .spline) (c := 40) hs _ wh he (by decide) (by decide)).trans ?_
      exact (many 40 (y.fields 29)).trans (congrArg (List.map (CodePair.newF64 40)) h2)
    · refine (withCode_pairs (k := .spline) (c := 41) hs _ wh he (by decide) (by decide)).trans ?_
      exact (many 41 (y.fields 30)).trans (congrArg (List.map (CodePair.newF64 41)) h3)
    · refine (inCodes_pairs (k := .spline) (cs := [10, 20, 30]) hs _ wh he (by decide)).trans ?_
      exact (inCodes_points 10 (PtAcc.pts (y.fields 31))).trans (congrArg (Curve.points 10) h4)
    · refine (inCodes_pairs (k := .spline) (cs := [11, 21, 31]) hs _ wh he (by decide)).trans ?_
      exact (inCodes_points 11 (PtAcc.pts (y.fields 32))).trans (congrArg (Curve.points 11) h5)
  all_goals cases h

set_option maxRecDepth 20000 in
/-- C83: a spline that is read has the degree, the knots, the weights and the points that its pairs say by
the DXF reference, whatever other fields there are. -/
theorem C83_read {k : Curve} {op q : CodePair} (hop : op.code = 0) (hv : op.value = .str str!"SPLINE")
    {ps : List CodePair} (hf : ∀ p ∈ ps, FieldCode p.code)
    (hd : (ps.filter fun p => decide (p.code = 71)).map CodePair.value = [.short k.degree])
    (hk : (ps.filter fun p => decide (p.code = 40)).map CodePair.value = k.knots.map .double)
    (hw : (ps.filter fun p => decide (p.code = 41)).map CodePair.value = k.weights.map .double)
    (hc : Curve.Gives ps 10 k.control) (ht : Curve.Gives ps 11 k.fit)
    (hq : q.code = 0) {c : List CodePair} {f : Flat} {t : Stream}
    (hx : nextEntity (toStream (op :: (ps ++ q :: c))) = (.ok (some f), t)) : k.In f := by
  rw [toStream_cons, toStream_append, toStream_cons] at hx
  obtain ⟨r, ext, xd, hr, rfl⟩ := nextEntity_fold (k := .spline) (fun _ => rfl) (fun _ _ => rfl)
    (fun _ => rfl) hop hv rfl ⟨by simp, by simp⟩ (plain_of hf) hq hx
  have hr : foldPairs Ent.splineArms (Rec.dflt (commonDecls ++ Ent.splineSpec)) ps = .ok r := hr
  refine ⟨?_, ?_, ?_, ?_, ?_⟩
  · refine (fold_lens (ds := commonDecls ++ Ent.splineSpec) (arms := Ent.splineArms) (c := 71)
      (get := fun r : SplineRec => (r 20 : I32)) (a := k.degree.signExtend 32) (w := .short k.degree)
      (fun r r' p hp h => arm_other (cs := [71]) (by decide +kernel) (by simpa using hp) h)
      (fun r r' p hp hz h => ?_) hd hr :)
    have h' : Act.apply r p (.on 20 (.set .i32OfI16)) = .ok r' := by
      unfold applyPair at h
      rw [hp] at h
      exact h
    obtain ⟨y, hy, rfl⟩ := on_apply h'
    exact (Rec.set_self (i := 20) r y).trans (i16_own hz hy)
  · refine (list_fold (c := 40) (get := fun r : SplineRec => r 29)
      (fun r r' p hp h => arm_other (cs := [40]) (by decide +kernel) (by simpa using hp) h)
      (fun r r' p z hp hz h => ?_) hk hr).trans rfl
    have h' : Act.apply r p (.on 29 (.push .f64)) = .ok r' := by
      unfold applyPair at h
      rw [hp] at h
      exact h
    obtain ⟨y, hy, rfl⟩ := on_apply h'
    exact (Rec.set_self (i := 29) r y).trans (push_own hz hy)
  · refine (list_fold (c := 41) (get := fun r : SplineRec => r 30)
      (fun r r' p hp h => arm_other (cs := [41]) (by decide +kernel) (by simpa using hp) h)
      (fun r r' p z hp hz h => ?_) hw hr).trans rfl
    have h' : Act.apply r p (.on 30 (.push .f64)) = .ok r' := by
      unfold applyPair at h
      rw [hp] at h
      exact h
    obtain ⟨y, hy, rfl⟩ := on_apply h'
    exact (Rec.set_self (i := 30) r y).trans (push_own hz hy)
  · exact points_read (get := SplineRec.control) (c := 10) control_step hc.1 hc.2.1 hc.2.2 rfl hr
  · exact points_read (get := SplineRec.fit) (c := 11) fit_step ht.1 ht.2.1 ht.2.2 rfl hr

/-- A spline in a file, with its codes in an order of its own. -/
example (a b u w : F64) (p q s : Point) : ∃ f t,
    nextEntity (toStream (.newStr 0 str!"SPLINE" :: ([.newF64 40 a, .newI16 71 3#16] ++ (p.coded 10 ++
      [.newF64 41 w, .newF64 40 b] ++ q.coded 10 ++ [.newF64 41 u] ++ s.coded 11 ++ [.newStr 8 str!"l"]) ++
      .newStr 0 str!"ENDSEC" :: []))) = (.ok (some f), t) ∧
    Curve.In ⟨3#16, [a, b], [w, u], [p, q], [s]⟩ f := by
  refine ⟨_, _, rfl, ?_⟩
  refine C83_read (k := ⟨3#16, [a, b], [w, u], [p, q], [s]⟩) (op := .newStr 0 str!"SPLINE")
    (q := .newStr 0 str!"ENDSEC") (c := []) (ps := [.newF64 40 a, .newI16 71 3#16] ++ (p.coded 10 ++
      [.newF64 41 w, .newF64 40 b] ++ q.coded 10 ++ [.newF64 41 u] ++ s.coded 11 ++ [.newStr 8 str!"l"]))
    rfl rfl ?_ rfl rfl rfl ⟨rfl, rfl, rfl⟩ ⟨rfl, rfl, rfl⟩ rfl rfl
  simp [FieldCode, Point.coded, CodePair.newF64, CodePair.newI16, CodePair.newStr]

/-- A spline with a knot and a control point. -/
example (z : F64) (p : Point) : Curve.In ⟨1#16, [z], [], [p], []⟩
    (Entity.new .spline (((Rec.dflt EName.spline.decls).set 29 ([z] : List F64)).set 31
      (⟨[], [], [], [p]⟩ : PtAcc))).toFlat := ⟨rfl, rfl, rfl, rfl, rfl⟩

end Dxf
