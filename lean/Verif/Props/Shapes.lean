import Verif.Lemmas.Shapes
import Verif.Spec.Order

/-! Simple shapes are described in files as the DXF reference says (C77). -/

namespace Dxf

/-- C77: a shape that is made with a constructor has the geometry it was given. -/
theorem C77_made (a b c d : Point) (r s t : F64) :
    Shape.of (Entity.new .line (Line.new a b)).toFlat = some (.line a b) ∧
    Shape.of (Entity.new .modelPoint (ModelPoint.new a)).toFlat = some (.point a) ∧
    Shape.of (Entity.new .circle (Circle.new a r)).toFlat = some (.circle a r) ∧
    Shape.of (Entity.new .arc (Arc.new a r s t)).toFlat = some (.arc a r s t) ∧
    Shape.of (Entity.new .face3D (Face3D.new a b c d)).toFlat = some (.face a b c d) ∧
    Shape.of (Entity.new .solid (Solid.new a b c d)).toFlat = some (.solid a b c d) ∧
    Shape.of (Entity.new .trace (Trace.new a b c d)).toFlat = some (.trace a b c d) ∧
    Shape.of (Entity.new .vertex (Vertex.new a)).toFlat = some (.vertex a) :=
  ⟨rfl, rfl, rfl, rfl, rfl, rfl, rfl, rfl⟩

/-- For the pairs of an entity: every code of the list has one statement. -/
theorem written_of {k : EName} {v : Version} (hk : k.supported v = true) {n : Nat} {wh : Bool}
    {e : Entry k.decls} (he : e.ext = []) {qs : List CodePair}
    (hq : (qs.all fun p => decide (p.code ≠ 0) && decide (p.code < 1000)) = true)
    (h : ∀ p ∈ qs, withCode p.code (emitAll
      (((commonHead k.kind.spec wh ++ commonCmds k.kind.spec wh) ++ k.kind.cmds n).filter
        (GCmd.mentions p.code)) v e.fields) = [p]) :
    ∀ p ∈ qs, withCode p.code (k.pairs n v wh e []) = [p] := by
  intro p hp
  have := List.all_eq_true.mp hq p hp
  rw [Bool.and_eq_true, decide_eq_true_eq, decide_eq_true_eq] at this
  rw [withCode_pairs hk n wh he this.1 this.2, h p hp]

/-- The type of an entity is written first. -/
theorem pairs_head {k : EName} {v : Version} (hk : k.supported v = true) (n : Nat) (wh : Bool)
    (e : Entry k.decls) (post : List CodePair) :
    (k.pairs n v wh e post).head? = some (.newStr 0 k.kind.typeString) := by
  unfold EName.pairs
  rw [if_pos hk]
  rfl

set_option maxRecDepth 20000 in
set_option maxHeartbeats 2000000 in
/-- C77: an entity is written with its type and its geometry as the DXF reference says: for each code
that describes the shape there is one pair with that code, and it has the value.  (Extension groups
may contain any codes.) -/
theorem C77_written {e : Entity} {s : Shape} (h : Shape.of e.toFlat = some s) (he : e.entry.ext = [])
    {v : Version} (hv : s.since ≤ v) (wh : Bool) :
    (e.pairs v wh).head? = some (.newStr 0 s.name) ∧
    ∀ p ∈ s.codes, (e.pairs v wh).filter (fun q => decide (q.code = p.code)) = [p] := by
  obtain ⟨⟨k, n, x⟩, ex⟩ := e
  cases k
  case line =>
    cases h
    exact ⟨pairs_head rfl _ _ _ _, written_of rfl he rfl (by
      repeat refine List.forall_mem_cons.mpr ⟨rfl, ?_⟩
      exact List.forall_mem_nil _)⟩
  case modelPoint =>
    cases h
    exact ⟨pairs_head rfl _ _ _ _, written_of rfl he rfl (by
      repeat refine List.forall_mem_cons.mpr ⟨rfl, ?_⟩
      exact List.forall_mem_nil _)⟩
  case circle =>
    cases h
    exact ⟨pairs_head rfl _ _ _ _, written_of rfl he rfl (by
      repeat refine List.forall_mem_cons.mpr ⟨rfl, ?_⟩
      exact List.forall_mem_nil _)⟩
  case arc =>
    cases h
    exact ⟨pairs_head rfl _ _ _ _, written_of rfl he rfl (by
      repeat refine List.forall_mem_cons.mpr ⟨rfl, ?_⟩
      exact List.forall_mem_nil _)⟩
  case face3D =>
    cases h
    exact ⟨pairs_head rfl _ _ _ _, written_of rfl he rfl (by
      repeat refine List.forall_mem_cons.mpr ⟨rfl, ?_⟩
      exact List.forall_mem_nil _)⟩
  case solid =>
    cases h
    exact ⟨pairs_head rfl _ _ _ _, written_of rfl he rfl (by
      repeat refine List.forall_mem_cons.mpr ⟨rfl, ?_⟩
      exact List.forall_mem_nil _)⟩
  case trace =>
    cases h
    exact ⟨pairs_head rfl _ _ _ _, written_of rfl he rfl (by
      repeat refine List.forall_mem_cons.mpr ⟨rfl, ?_⟩
      exact List.forall_mem_nil _)⟩
  case vertex =>
    cases h
    exact ⟨pairs_head rfl _ _ _ _, written_of rfl he rfl (by
      repeat refine List.forall_mem_cons.mpr ⟨rfl, ?_⟩
      exact List.forall_mem_nil _)⟩
  case ray =>
    cases h
    have hs : EName.ray.supported v = true := by
      have hs : ∀ v, Version.r13 ≤ v → EName.ray.supported v = true := by
        intro v
        cases v <;> decide
      exact hs v hv
    exact ⟨pairs_head hs _ _ _ _, written_of hs he rfl (by
      repeat refine List.forall_mem_cons.mpr ⟨rfl, ?_⟩
      exact List.forall_mem_nil _)⟩
  case xLine =>
    cases h
    have hs : EName.xLine.supported v = true := by
      have hs : ∀ v, Version.r13 ≤ v → EName.xLine.supported v = true := by
        intro v
        cases v <;> decide
      exact hs v hv
    exact ⟨pairs_head hs _ _ _ _, written_of hs he rfl (by
      repeat refine List.forall_mem_cons.mpr ⟨rfl, ?_⟩
      exact List.forall_mem_nil _)⟩
  case ellipse =>
    cases h
    have hs : EName.ellipse.supported v = true := by
      have hs : ∀ v, Version.r13 ≤ v → EName.ellipse.supported v = true := by
        intro v
        cases v <;> decide
      exact hs v hv
    exact ⟨pairs_head hs _ _ _ _, written_of hs he rfl (by
      repeat refine List.forall_mem_cons.mpr ⟨rfl, ?_⟩
      exact List.forall_mem_nil _)⟩
  all_goals cases h

def Ty.pointOf : (t : Ty) → t.den → Option Point
  | .point, p => some p
  | _, _ => none

theorem point_read {ds : List Decl} {arms : List (Arm ds)} {i : Nat} {c : Int}
    (hf : (Spot.fits arms c (.axis i .x) && Spot.fits arms (c + 10) (.axis i .y) &&
      Spot.fits arms (c + 20) (.axis i .z)) = true) {P : Point} {ps : List CodePair}
    (h : ∀ p ∈ P.coded c, (withCode p.code ps).map CodePair.value = [p.value]) {r0 r : Rec ds}
    (hr : foldPairs arms r0 ps = .ok r) : Ty.pointOf (tyAt ds i) (r.finish i) = some P := by
  rw [Bool.and_eq_true, Bool.and_eq_true] at hf
  have hx := fold_own hf.1.1 (h (.newF64 c P.x) (by simp [Point.coded])) hr
  have hy := fold_own hf.1.2 (h (.newF64 (c + 10) P.y) (by simp [Point.coded])) hr
  have hz := fold_own hf.2 (h (.newF64 (c + 20) P.z) (by simp [Point.coded])) hr
  rw [← get_finish] at hx hy hz
  revert hx hy hz
  simp only [Spot.get]
  generalize r.finish i = x
  revert x
  generalize tyAt ds i = t
  intro x hx hy hz
  cases t <;> first | cases hx | skip
  obtain ⟨x1, x2, x3⟩ := x
  cases hx
  cases hy
  cases hz
  rfl

theorem num_read {ds : List Decl} {arms : List (Arm ds)} {i : Nat} {c : Int}
    (hf : Spot.fits arms c (.num i) = true) {z : F64} {ps : List CodePair}
    (h : (withCode c ps).map CodePair.value = [.double z]) {r0 r : Rec ds}
    (hr : foldPairs arms r0 ps = .ok r) : Ty.numOf (tyAt ds i) (r.finish i) = some z := by
  have hx := fold_own hf h hr
  rw [← get_finish] at hx
  exact hx

set_option maxRecDepth 20000 in
set_option maxHeartbeats 2000000 in
/-- C77: an entity that is read has the geometry its pairs describe by the DXF reference, in whatever
order they stand and whatever other fields there are. -/
theorem C77_read {s : Shape} {op q : CodePair} (hop : op.code = 0) (hv : op.value = .str s.name)
    {ps : List CodePair} (hf : ∀ p ∈ ps, FieldCode p.code)
    (hps : ∀ p ∈ s.codes, (ps.filter fun q => decide (q.code = p.code)).map CodePair.value = [p.value])
    (hq : q.code = 0) {c : List CodePair} {x : Flat} {t : Stream}
    (hx : nextEntity (toStream (op :: (ps ++ q :: c))) = (.ok (some x), t)) :
    Shape.of x = some s := by
  have hc : ∀ p ∈ ps, plainCode p.code = true := fun p hp => by
    have := hf p hp
    simp only [FieldCode] at this
    simp only [plainCode, ne_eq, Bool.and_eq_true, decide_eq_true_eq]
    refine ⟨⟨⟨?_, ?_⟩, ?_⟩, ?_⟩ <;> omega
  rw [toStream_cons, toStream_append, toStream_cons] at hx
  cases s
  case line a b =>
    obtain ⟨r', ext, xd, hfold, rfl⟩ := nextEntity_fold (k := .line) (fun _ => rfl) (fun _ _ => rfl)
      (fun _ => rfl) hop hv rfl ⟨by simp [Shape.name], by simp [Shape.name]⟩ hc hq hx
    have ha := point_read (i := 19) (c := 10) (P := a) rfl (fun p hp => hps p (by simp [Shape.codes, hp])) hfold
    have hb := point_read (i := 20) (c := 11) (P := b) rfl (fun p hp => hps p (by simp [Shape.codes, hp])) hfold
    change some (Shape.line (r'.finish 19) (r'.finish 20)) = _
    rw [show r'.finish 19 = a from Option.some.inj ha]
    rw [show r'.finish 20 = b from Option.some.inj hb]
  case point a =>
    obtain ⟨r', ext, xd, hfold, rfl⟩ := nextEntity_fold (k := .modelPoint) (fun _ => rfl) (fun _ _ => rfl)
      (fun _ => rfl) hop hv rfl ⟨by simp [Shape.name], by simp [Shape.name]⟩ hc hq hx
    have ha := point_read (i := 18) (c := 10) (P := a) rfl (fun p hp => hps p (by simp [Shape.codes, hp])) hfold
    change some (Shape.point (r'.finish 18)) = _
    rw [show r'.finish 18 = a from Option.some.inj ha]
  case circle a r =>
    obtain ⟨r', ext, xd, hfold, rfl⟩ := nextEntity_fold (k := .circle) (fun _ => rfl) (fun _ _ => rfl)
      (fun _ => rfl) hop hv rfl ⟨by simp [Shape.name], by simp [Shape.name]⟩ hc hq hx
    have ha := point_read (i := 19) (c := 10) (P := a) rfl (fun p hp => hps p (by simp [Shape.codes, hp])) hfold
    have hr := num_read (i := 20) (c := 40) (z := r) rfl (hps (.newF64 40 r) (by simp [Shape.codes])) hfold
    change some (Shape.circle (r'.finish 19) (r'.finish 20)) = _
    rw [show r'.finish 19 = a from Option.some.inj ha]
    rw [show r'.finish 20 = r from Option.some.inj hr]
  case arc a r s t =>
    obtain ⟨r', ext, xd, hfold, rfl⟩ := nextEntity_fold (k := .arc) (fun _ => rfl) (fun _ _ => rfl)
      (fun _ => rfl) hop hv rfl ⟨by simp [Shape.name], by simp [Shape.name]⟩ hc hq hx
    have ha := point_read (i := 19) (c := 10) (P := a) rfl (fun p hp => hps p (by simp [Shape.codes, hp])) hfold
    have hr := num_read (i := 20) (c := 40) (z := r) rfl (hps (.newF64 40 r) (by simp [Shape.codes])) hfold
    have hs := num_read (i := 22) (c := 50) (z := s) rfl (hps (.newF64 50 s) (by simp [Shape.codes])) hfold
    have ht := num_read (i := 23) (c := 51) (z := t) rfl (hps (.newF64 51 t) (by simp [Shape.codes])) hfold
    change some (Shape.arc (r'.finish 19) (r'.finish 20) (r'.finish 22) (r'.finish 23)) = _
    rw [show r'.finish 19 = a from Option.some.inj ha]
    rw [show r'.finish 20 = r from Option.some.inj hr]
    rw [show r'.finish 22 = s from Option.some.inj hs]
    rw [show r'.finish 23 = t from Option.some.inj ht]
  case face a b c d =>
    obtain ⟨r', ext, xd, hfold, rfl⟩ := nextEntity_fold (k := .face3D) (fun _ => rfl) (fun _ _ => rfl)
      (fun _ => rfl) hop hv rfl ⟨by simp [Shape.name], by simp [Shape.name]⟩ hc hq hx
    have ha := point_read (i := 18) (c := 10) (P := a) rfl (fun p hp => hps p (by simp [Shape.codes, hp])) hfold
    have hb := point_read (i := 19) (c := 11) (P := b) rfl (fun p hp => hps p (by simp [Shape.codes, hp])) hfold
    have hc := point_read (i := 20) (c := 12) (P := c) rfl (fun p hp => hps p (by simp [Shape.codes, hp])) hfold
    have hd := point_read (i := 21) (c := 13) (P := d) rfl (fun p hp => hps p (by simp [Shape.codes, hp])) hfold
    change some (Shape.face (r'.finish 18) (r'.finish 19) (r'.finish 20) (r'.finish 21)) = _
    rw [show r'.finish 18 = a from Option.some.inj ha]
    rw [show r'.finish 19 = b from Option.some.inj hb]
    rw [show r'.finish 20 = c from Option.some.inj hc]
    rw [show r'.finish 21 = d from Option.some.inj hd]
  case solid a b c d =>
    obtain ⟨r', ext, xd, hfold, rfl⟩ := nextEntity_fold (k := .solid) (fun _ => rfl) (fun _ _ => rfl)
      (fun _ => rfl) hop hv rfl ⟨by simp [Shape.name], by simp [Shape.name]⟩ hc hq hx
    have ha := point_read (i := 18) (c := 10) (P := a) rfl (fun p hp => hps p (by simp [Shape.codes, hp])) hfold
    have hb := point_read (i := 19) (c := 11) (P := b) rfl (fun p hp => hps p (by simp [Shape.codes, hp])) hfold
    have hc := point_read (i := 20) (c := 12) (P := c) rfl (fun p hp => hps p (by simp [Shape.codes, hp])) hfold
    have hd := point_read (i := 21) (c := 13) (P := d) rfl (fun p hp => hps p (by simp [Shape.codes, hp])) hfold
    change some (Shape.solid (r'.finish 18) (r'.finish 19) (r'.finish 20) (r'.finish 21)) = _
    rw [show r'.finish 18 = a from Option.some.inj ha]
    rw [show r'.finish 19 = b from Option.some.inj hb]
    rw [show r'.finish 20 = c from Option.some.inj hc]
    rw [show r'.finish 21 = d from Option.some.inj hd]
  case trace a b c d =>
    obtain ⟨r', ext, xd, hfold, rfl⟩ := nextEntity_fold (k := .trace) (fun _ => rfl) (fun _ _ => rfl)
      (fun _ => rfl) hop hv rfl ⟨by simp [Shape.name], by simp [Shape.name]⟩ hc hq hx
    have ha := point_read (i := 18) (c := 10) (P := a) rfl (fun p hp => hps p (by simp [Shape.codes, hp])) hfold
    have hb := point_read (i := 19) (c := 11) (P := b) rfl (fun p hp => hps p (by simp [Shape.codes, hp])) hfold
    have hc := point_read (i := 20) (c := 12) (P := c) rfl (fun p hp => hps p (by simp [Shape.codes, hp])) hfold
    have hd := point_read (i := 21) (c := 13) (P := d) rfl (fun p hp => hps p (by simp [Shape.codes, hp])) hfold
    change some (Shape.trace (r'.finish 18) (r'.finish 19) (r'.finish 20) (r'.finish 21)) = _
    rw [show r'.finish 18 = a from Option.some.inj ha]
    rw [show r'.finish 19 = b from Option.some.inj hb]
    rw [show r'.finish 20 = c from Option.some.inj hc]
    rw [show r'.finish 21 = d from Option.some.inj hd]
  case vertex a =>
    obtain ⟨r', ext, xd, hfold, rfl⟩ := nextEntity_fold (k := .vertex) (fun _ => rfl) (fun _ _ => rfl)
      (fun _ => rfl) hop hv rfl ⟨by simp [Shape.name], by simp [Shape.name]⟩ hc hq hx
    have ha := point_read (i := 18) (c := 10) (P := a) rfl (fun p hp => hps p (by simp [Shape.codes, hp])) hfold
    change some (Shape.vertex (r'.finish 18)) = _
    rw [show r'.finish 18 = a from Option.some.inj ha]
  case ray a b =>
    obtain ⟨r', ext, xd, hfold, rfl⟩ := nextEntity_fold (k := .ray) (fun _ => rfl) (fun _ _ => rfl)
      (fun _ => rfl) hop hv rfl ⟨by simp [Shape.name], by simp [Shape.name]⟩ hc hq hx
    have ha := point_read (i := 18) (c := 10) (P := a) rfl (fun p hp => hps p (by simp [Shape.codes, hp])) hfold
    have hb := point_read (i := 19) (c := 11) (P := b) rfl (fun p hp => hps p (by simp [Shape.codes, hp])) hfold
    change some (Shape.ray (r'.finish 18) (r'.finish 19)) = _
    rw [show r'.finish 18 = a from Option.some.inj ha]
    rw [show r'.finish 19 = b from Option.some.inj hb]
  case xline a b =>
    obtain ⟨r', ext, xd, hfold, rfl⟩ := nextEntity_fold (k := .xLine) (fun _ => rfl) (fun _ _ => rfl)
      (fun _ => rfl) hop hv rfl ⟨by simp [Shape.name], by simp [Shape.name]⟩ hc hq hx
    have ha := point_read (i := 18) (c := 10) (P := a) rfl (fun p hp => hps p (by simp [Shape.codes, hp])) hfold
    have hb := point_read (i := 19) (c := 11) (P := b) rfl (fun p hp => hps p (by simp [Shape.codes, hp])) hfold
    change some (Shape.xline (r'.finish 18) (r'.finish 19)) = _
    rw [show r'.finish 18 = a from Option.some.inj ha]
    rw [show r'.finish 19 = b from Option.some.inj hb]
  case ellipse a b r s t =>
    obtain ⟨r', ext, xd, hfold, rfl⟩ := nextEntity_fold (k := .ellipse) (fun _ => rfl) (fun _ _ => rfl)
      (fun _ => rfl) hop hv rfl ⟨by simp [Shape.name], by simp [Shape.name]⟩ hc hq hx
    have ha := point_read (i := 18) (c := 10) (P := a) rfl (fun p hp => hps p (by simp [Shape.codes, hp])) hfold
    have hb := point_read (i := 19) (c := 11) (P := b) rfl (fun p hp => hps p (by simp [Shape.codes, hp])) hfold
    have hr := num_read (i := 21) (c := 40) (z := r) rfl (hps (.newF64 40 r) (by simp [Shape.codes])) hfold
    have hs := num_read (i := 22) (c := 41) (z := s) rfl (hps (.newF64 41 s) (by simp [Shape.codes])) hfold
    have ht := num_read (i := 23) (c := 42) (z := t) rfl (hps (.newF64 42 t) (by simp [Shape.codes])) hfold
    change some (Shape.ellipse (r'.finish 18) (r'.finish 19) (r'.finish 21) (r'.finish 22) (r'.finish 23)) = _
    rw [show r'.finish 18 = a from Option.some.inj ha]
    rw [show r'.finish 19 = b from Option.some.inj hb]
    rw [show r'.finish 21 = r from Option.some.inj hr]
    rw [show r'.finish 22 = s from Option.some.inj hs]
    rw [show r'.finish 23 = t from Option.some.inj ht]

/-- A circle in a file, its codes out of order and with a layer among them. -/
example (x y z r : F64) : ∃ f t,
    nextEntity (toStream (.newStr 0 str!"CIRCLE" :: ([.newF64 40 r, .newF64 30 z, .newStr 8 str!"a",
      .newF64 10 x, .newF64 20 y] ++ .newStr 0 str!"ENDSEC" :: []))) = (.ok (some f), t) ∧
    Shape.of f = some (.circle ⟨x, y, z⟩ r) := by
  refine ⟨_, _, rfl, ?_⟩
  refine C77_read (s := .circle ⟨x, y, z⟩ r) (op := .newStr 0 str!"CIRCLE")
    (q := .newStr 0 str!"ENDSEC") (c := []) (ps := [.newF64 40 r, .newF64 30 z, .newStr 8 str!"a",
      .newF64 10 x, .newF64 20 y]) rfl rfl ?_ ?_ rfl rfl
  · simp [FieldCode, CodePair.newF64, CodePair.newStr]
  · repeat refine List.forall_mem_cons.mpr ⟨rfl, ?_⟩
    exact List.forall_mem_nil _

/-- A line that is made meets the conditions for writing. -/
example (a b : Point) (v : Version) (wh : Bool) :
    ((Entity.new .line (Line.new a b)).pairs v wh).head? = some (.newStr 0 str!"LINE") ∧
    ∀ p ∈ a.coded 10 ++ b.coded 11,
      ((Entity.new .line (Line.new a b)).pairs v wh).filter (fun q => decide (q.code = p.code)) = [p] :=
  C77_written (C77_made a b a b .unit .unit .unit).1 rfl ((by intro v; cases v <;> decide : ∀ v, Version.v1_0 ≤ v) v) wh

end Dxf
