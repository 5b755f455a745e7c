import Verif.Model.Corners
import Verif.Lemmas.Placed

/-! The corners of light polylines, written and read (C80). -/

namespace Dxf

/-- The record of a LWPOLYLINE. -/
abbrev LwRec := Rec (commonDecls ++ Ent.lwPolylineSpec)

def LwRec.verts (r : LwRec) : List LwVertex := r 21

theorem arm_other {ds : List Decl} {arms : List (Arm ds)} {i : Nat} {cs : List Int}
    (hi : (arms.all fun a => decide (a.code ∈ cs) || a.act.spares (.num i)) = true)
    {r r' : Rec ds} {p : CodePair} (hp : p.code ∉ cs)
    (h : applyPair arms r p = .ok r') : r' i = r i := by
  unfold applyPair at h
  cases ha : findArm arms p.code with
  | none => rw [ha] at h; cases h; rfl
  | some a =>
    rw [ha] at h
    obtain ⟨hm, hc⟩ := findArm_mem ha
    have hl := List.all_eq_true.mp hi a hm
    rw [Bool.or_eq_true, decide_eq_true_eq] at hl
    have hl := hl.resolve_left (hc ▸ hp)
    change a.act.apply r p = _ at h
    cases hact : a.act with
    | custom ts f => rw [hact] at hl; cases hl
    | on j f =>
      rw [hact] at hl h
      obtain ⟨x, -, rfl⟩ := on_apply h
      exact Rec.set_ne r x (Ne.symm (of_decide_eq_true hl))

theorem lwSet_apply {f : LwField} {l y : List LwVertex} {v : LwVertex} {p : CodePair}
    (h : FRead.apply (FRead.lwSet f) (l ++ [v] : List LwVertex) p = .ok y) :
    ∃ v', v.setField p f = .ok v' ∧ y = l ++ [v'] := by
  change (match LwVertex.dflt.setField p f with
    | .error e => .error e
    | .ok _ =>
      match List.getLast? (l ++ [v]) with
      | none => .error .unexpectedEmptySet
      | some w => (w.setField p f).map fun l' => List.append (List.dropLast (l ++ [v])) [l']) =
        Except.ok y at h
  cases h1 : LwVertex.dflt.setField p f with
  | error e => rw [h1] at h; cases h
  | ok w =>
    rw [h1] at h
    dsimp only at h
    rw [List.getLast?_append_of_ne_nil _ (by simp), List.dropLast_concat] at h
    dsimp only [List.getLast?] at h
    cases h2 : v.setField p f with
    | error e =>
      simp [h2, Except.map] at h
    | ok v' =>
      refine ⟨v', rfl, ?_⟩
      simp [h2, Except.map] at h
      exact h.symm

/-- The fields of a vertex that have their own codes. -/
def lwFields : List (Int × (LwVertex → F64)) :=
  [(20, LwVertex.y), (40, LwVertex.startingWidth), (41, LwVertex.endingWidth), (42, LwVertex.bulge)]

theorem setField_f64 {v v' : LwVertex} {p : CodePair} {f : LwField} (hf : f ≠ .id)
    (h : v.setField p f = .ok v') : ∃ z, p.assertF64 = .ok z := by
  cases hz : p.assertF64 with
  | ok z => exact ⟨z, rfl⟩
  | error e => cases f <;> first | exact absurd rfl hf | (simp [LwVertex.setField, hz, Except.map] at h)

theorem double_of {p : CodePair} {y z : F64} (h : p.assertF64 = .ok y) (hv : p.value = .double z) :
    y = z := by
  rw [CodePair.assertF64, hv] at h
  cases h
  rfl

/-- One pair after the first of a vertex. -/
theorem lw_step {r r' : LwRec} {p : CodePair} (hp : p.code ≠ 10)
    (h : applyPair Ent.lwPolylineArms r p = .ok r') {l : List LwVertex} {v : LwVertex}
    (hr : LwRec.verts r = l ++ [v]) : ∃ v', LwRec.verts r' = l ++ [v'] ∧ v'.x = v.x ∧
      ∀ f ∈ lwFields, (p.code ≠ f.1 → f.2 v' = f.2 v) ∧
        ∀ z, p.code = f.1 → p.value = .double z → f.2 v' = z := by
  have own : ∀ (c : Int) (f : LwField), p.code = c →
      findArm Ent.lwPolylineArms c = some ⟨c, .on 21 (.lwSet f)⟩ →
      ∃ v', LwRec.verts r' = l ++ [v'] ∧ v.setField p f = .ok v' := by
    intro c f hc ha
    unfold applyPair at h
    rw [hc, ha] at h
    obtain ⟨x, hx, rfl⟩ := on_apply (ds := commonDecls ++ Ent.lwPolylineSpec) (j := 21) (f := FRead.lwSet f) h
    have hx : FRead.apply (FRead.lwSet f) (l ++ [v] : List LwVertex) p = .ok x := hr ▸ hx
    obtain ⟨v', h1, rfl⟩ := lwSet_apply hx
    exact ⟨v', Rec.set_self (i := 21) r (l ++ [v'] : List LwVertex), h1⟩
  by_cases h20 : p.code = 20
  · obtain ⟨v', h1, h2⟩ := own 20 .y h20 rfl
    obtain ⟨y, hy⟩ := setField_f64 (by decide) h2
    simp only [LwVertex.setField, hy, Except.map, Except.ok.injEq] at h2
    subst h2
    refine ⟨_, h1, rfl, ?_⟩
    simp only [lwFields, List.forall_mem_cons, List.not_mem_nil, false_imp_iff, implies_true, and_true]
    simp [h20]
    exact fun z hz => double_of hy hz
  by_cases h40 : p.code = 40
  · obtain ⟨v', h1, h2⟩ := own 40 .startingWidth h40 rfl
    obtain ⟨y, hy⟩ := setField_f64 (by decide) h2
    simp only [LwVertex.setField, hy, Except.map, Except.ok.injEq] at h2
    subst h2
    refine ⟨_, h1, rfl, ?_⟩
    simp only [lwFields, List.forall_mem_cons, List.not_mem_nil, false_imp_iff, implies_true, and_true]
    simp [h40]
    exact fun z hz => double_of hy hz
  by_cases h41 : p.code = 41
  · obtain ⟨v', h1, h2⟩ := own 41 .endingWidth h41 rfl
    obtain ⟨y, hy⟩ := setField_f64 (by decide) h2
    simp only [LwVertex.setField, hy, Except.map, Except.ok.injEq] at h2
    subst h2
    refine ⟨_, h1, rfl, ?_⟩
    simp only [lwFields, List.forall_mem_cons, List.not_mem_nil, false_imp_iff, implies_true, and_true]
    simp [h41]
    exact fun z hz => double_of hy hz
  by_cases h42 : p.code = 42
  · obtain ⟨v', h1, h2⟩ := own 42 .bulge h42 rfl
    obtain ⟨y, hy⟩ := setField_f64 (by decide) h2
    simp only [LwVertex.setField, hy, Except.map, Except.ok.injEq] at h2
    subst h2
    refine ⟨_, h1, rfl, ?_⟩
    simp only [lwFields, List.forall_mem_cons, List.not_mem_nil, false_imp_iff, implies_true, and_true]
    simp [h42]
    exact fun z hz => double_of hy hz
  by_cases h91 : p.code = 91
  · obtain ⟨v', h1, h2⟩ := own 91 .id h91 rfl
    cases hn : p.assertI32 with
    | error e => simp [LwVertex.setField, hn, Except.map] at h2
    | ok n =>
      simp only [LwVertex.setField, hn, Except.map, Except.ok.injEq] at h2
      subst h2
      refine ⟨_, h1, rfl, ?_⟩
      simp only [lwFields, List.forall_mem_cons, List.not_mem_nil, false_imp_iff, implies_true, and_true]
      simp [h91]
  · have ho : r' 21 = r 21 := arm_other (cs := cornerCodes) (by decide +kernel)
      (by simp [cornerCodes]; exact ⟨hp, h20, h40, h41, h42, h91⟩) h
    refine ⟨v, (show LwRec.verts r' = LwRec.verts r from ho).trans hr, rfl, ?_⟩
    simp only [lwFields, List.forall_mem_cons, List.not_mem_nil, false_imp_iff, implies_true, and_true]
    simp [h20, h40, h41, h42]

/-- The pairs after the first of a vertex. -/
theorem lw_rest {rest : List CodePair} (hp : ∀ q ∈ rest, q.code ≠ 10) {r r' : LwRec}
    (h : foldPairs Ent.lwPolylineArms r rest = .ok r') {l : List LwVertex} {v : LwVertex}
    (hr : LwRec.verts r = l ++ [v]) : ∃ v', LwRec.verts r' = l ++ [v'] ∧ v'.x = v.x ∧
      ∀ f ∈ lwFields, (withCode f.1 rest = [] → f.2 v' = f.2 v) ∧
        ∀ z, (withCode f.1 rest).map CodePair.value = [.double z] → f.2 v' = z := by
  induction rest generalizing r v with
  | nil =>
    cases h
    exact ⟨v, hr, rfl, fun f _ => ⟨fun _ => rfl, fun z hz => by cases hz⟩⟩
  | cons p rest ih =>
    obtain ⟨r1, h1, h2⟩ := fold_cons h
    obtain ⟨v1, a1, a2, a3⟩ := lw_step (hp p List.mem_cons_self) h1 hr
    obtain ⟨v2, b1, b2, b3⟩ := ih (fun q hq => hp q (List.mem_cons_of_mem _ hq)) h2 a1
    refine ⟨v2, b1, b2.trans a2, fun f hf => ?_⟩
    obtain ⟨a4, a5⟩ := a3 f hf
    obtain ⟨b4, b5⟩ := b3 f hf
    by_cases hc : p.code = f.1
    · have e : withCode f.1 (p :: rest) = p :: withCode f.1 rest := by
        unfold withCode
        rw [List.filter_cons, if_pos (decide_eq_true hc)]
      rw [e]
      refine ⟨fun h => absurd h (List.cons_ne_nil _ _), fun z hz => ?_⟩
      rw [List.map_cons, List.cons.injEq, List.map_eq_nil_iff] at hz
      exact (b4 hz.2).trans (a5 z hc hz.1)
    · have e : withCode f.1 (p :: rest) = withCode f.1 rest := by
        unfold withCode
        rw [List.filter_cons, if_neg (by simpa using hc)]
      rw [e]
      exact ⟨fun h => (b4 h).trans (a4 hc), b5⟩

/-- The pairs of one corner. -/
theorem lw_corner {k : Corner} {ps : List CodePair} (hk : k.Describes ps) {r r' : LwRec}
    (h : foldPairs Ent.lwPolylineArms r ps = .ok r') :
    ∃ v, LwRec.verts r' = LwRec.verts r ++ [v] ∧ v.corner = k := by
  obtain ⟨p, rest, rfl, hc, hv, hp, h20, h40, h41, h42⟩ := hk
  obtain ⟨r1, h1, h2⟩ := fold_cons h
  have h1' : (Act.on 21 FRead.lwNew : Act (commonDecls ++ Ent.lwPolylineSpec)).apply r p = .ok r1 := by
    unfold applyPair at h1
    rw [hc] at h1
    exact h1
  obtain ⟨x, hx, rfl⟩ := on_apply h1'
  have ha : p.assertF64 = .ok k.x := by rw [CodePair.assertF64, hv]
  have hx : x = LwRec.verts r ++ [{ LwVertex.dflt with x := k.x }] := by
    simp only [FRead.apply, ha, Except.map] at hx
    cases hx
    rfl
  obtain ⟨v, b1, b2, b3⟩ := lw_rest hp h2 (l := LwRec.verts r) (v := { LwVertex.dflt with x := k.x })
    ((Rec.set_self (i := 21) r x).trans hx)
  refine ⟨v, b1, ?_⟩
  have opt : ∀ f ∈ lwFields, f.2 { LwVertex.dflt with x := k.x } = .zero → ∀ z,
      GivenOrZero f.1 z rest → f.2 v = z := by
    intro f hf h0 z hz
    obtain hz | ⟨hz, rfl⟩ := hz
    · exact (b3 f hf).2 z hz
    · exact ((b3 f hf).1 hz).trans h0
  have e1 : v.y = k.y := (b3 (20, LwVertex.y) (by simp [lwFields])).2 _ h20
  have e2 : v.startingWidth = k.startWidth :=
    opt (40, LwVertex.startingWidth) (by simp [lwFields]) rfl _ h40
  have e3 : v.endingWidth = k.endWidth := opt (41, LwVertex.endingWidth) (by simp [lwFields]) rfl _ h41
  have e4 : v.bulge = k.bulge := opt (42, LwVertex.bulge) (by simp [lwFields]) rfl _ h42
  unfold LwVertex.corner
  rw [b2, e1, e2, e3, e4]

theorem lw_corners {segs : List (Corner × List CodePair)} (hk : ∀ s ∈ segs, s.1.Describes s.2)
    {r r' : LwRec} (h : foldPairs Ent.lwPolylineArms r (segs.flatMap Prod.snd) = .ok r') :
    (LwRec.verts r').map LwVertex.corner = (LwRec.verts r).map LwVertex.corner ++ segs.map Prod.fst := by
  induction segs generalizing r with
  | nil =>
    cases h
    simp
  | cons s segs ih =>
    rw [List.flatMap_cons, foldPairs_append] at h
    cases h1 : foldPairs Ent.lwPolylineArms r s.2 with
    | error e => rw [h1] at h; cases h
    | ok r1 =>
      rw [h1] at h
      obtain ⟨v, a1, a2⟩ := lw_corner (hk s List.mem_cons_self) h1
      rw [ih (fun t ht => hk t (List.mem_cons_of_mem _ ht)) h, a1]
      simp [a2]

theorem lw_before {pre : List CodePair} (hp : ∀ p ∈ pre, p.code ∉ cornerCodes) {r r' : LwRec}
    (h : foldPairs Ent.lwPolylineArms r pre = .ok r') : LwRec.verts r' = LwRec.verts r := by
  induction pre generalizing r with
  | nil => cases h; rfl
  | cons p pre ih =>
    obtain ⟨r1, h1, h2⟩ := fold_cons h
    rw [ih (fun q hq => hp q (List.mem_cons_of_mem _ hq)) h2]
    exact arm_other (cs := cornerCodes) (i := 21) (by decide +kernel) (hp p List.mem_cons_self) h1

theorem describes_pairs {v : LwVertex} (h : v.corner.Exact) (b : Bool) :
    v.corner.Describes (v.pairs b) := by
  have h1 := h v.startingWidth (by simp [LwVertex.corner])
  have h2 := h v.endingWidth (by simp [LwVertex.corner])
  have h3 := h v.bulge (by simp [LwVertex.corner])
  refine ⟨.newF64 10 v.x, (v.pairs b).tail, by simp [LwVertex.pairs], rfl, rfl, ?_, ?_, ?_, ?_, ?_⟩
  · cases b <;> cases e1 : F64.rustEq v.startingWidth .zero <;> cases e2 : F64.rustEq v.endingWidth .zero <;>
      cases e3 : F64.rustEq v.bulge .zero <;> simp [LwVertex.pairs, e1, e2, e3,
        CodePair.newF64, CodePair.newI32]
  · cases b <;> cases e1 : F64.rustEq v.startingWidth .zero <;> cases e2 : F64.rustEq v.endingWidth .zero <;>
      cases e3 : F64.rustEq v.bulge .zero <;> simp [LwVertex.pairs, e1, e2, e3, Given, LwVertex.corner,
        CodePair.newF64, CodePair.newI32]
  · cases b <;> cases e1 : F64.rustEq v.startingWidth .zero <;> cases e2 : F64.rustEq v.endingWidth .zero <;>
      cases e3 : F64.rustEq v.bulge .zero <;> simp [LwVertex.pairs, e1, e2, e3, Given, GivenOrZero,
        LwVertex.corner, CodePair.newF64, CodePair.newI32] <;> exact h1 e1
  · cases b <;> cases e1 : F64.rustEq v.startingWidth .zero <;> cases e2 : F64.rustEq v.endingWidth .zero <;>
      cases e3 : F64.rustEq v.bulge .zero <;> simp [LwVertex.pairs, e1, e2, e3, Given, GivenOrZero,
        LwVertex.corner, CodePair.newF64, CodePair.newI32] <;> exact h2 e2
  · cases b <;> cases e1 : F64.rustEq v.startingWidth .zero <;> cases e2 : F64.rustEq v.endingWidth .zero <;>
      cases e3 : F64.rustEq v.bulge .zero <;> simp [LwVertex.pairs, e1, e2, e3, Given, GivenOrZero,
        LwVertex.corner, CodePair.newF64, CodePair.newI32] <;> exact h3 e3

/-- Statements that mention none of the codes. -/
theorem emitAll_codes {ds : List Decl} {gs : List (GCmd ds)} {cs : List Int}
    (h : (gs.all fun g => g.cmd.codes.all fun c => decide (c ∉ cs)) = true) (v : Version) (r : Rec ds) :
    ∀ p ∈ emitAll gs v r, p.code ∉ cs := by
  intro p hp
  obtain ⟨g, hg, hp⟩ := List.mem_flatMap.mp hp
  exact of_decide_eq_true (List.all_eq_true.mp (List.all_eq_true.mp h g hg) _ (emit_codes hp))

/-- The vertices are written once, for every version. -/
theorem lw_emit (v : Version) (r : LwRec) :
    ∃ b, emitAll ((Ent.lwPolylineCmds.drop 6).take 2) v r = (LwRec.verts r).flatMap (LwVertex.pairs b) := by
  by_cases h : Version.r2013 ≤ v
  · refine ⟨true, ?_⟩
    cases v <;> first | exact absurd h (by decide) | exact List.append_nil _
  · refine ⟨false, ?_⟩
    cases v <;> first | exact absurd (by decide) h | exact List.append_nil _

theorem lw_arrange {v : Version} {wh b : Bool} (r : LwRec) {ext : List ExtGroup} (he : ext = [])
    (hb : emitAll ((Ent.lwPolylineCmds.drop 6).take 2) v r = (LwRec.verts r).flatMap (LwVertex.pairs b))
    {o : CodePair} {x : List CodePair} :
    o :: (emitAll (commonHead Ent.lwPolylineSpec wh) v r ++
      (if Version.r14 ≤ v then ext.flatMap ExtGroup.pairs else []) ++
      emitAll (commonCmds Ent.lwPolylineSpec wh ++ Ent.lwPolylineCmds) v r) ++ [] ++ x =
    o :: (emitAll (commonHead Ent.lwPolylineSpec wh) v r ++
      (emitAll (commonCmds Ent.lwPolylineSpec wh) v r ++ emitAll (Ent.lwPolylineCmds.take 6) v r) ++
      ((LwRec.verts r).map fun w => (w.corner, w.pairs b)).flatMap Prod.snd ++
      (emitAll (Ent.lwPolylineCmds.drop 8) v r ++ x)) := by
  have e0 : emitAll Ent.lwPolylineCmds v r = emitAll (Ent.lwPolylineCmds.take 6) v r ++
      (emitAll ((Ent.lwPolylineCmds.drop 6).take 2) v r ++ emitAll (Ent.lwPolylineCmds.drop 8) v r) := by
    rw [← emitAll_append, ← emitAll_append]
    rfl
  rw [he, emitAll_append, e0, hb]
  simp [List.flatMap_map]

end Dxf
