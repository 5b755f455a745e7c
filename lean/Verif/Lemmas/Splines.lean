import Verif.Model.Splines
import Verif.Lemmas.Styles

/-! The lists of a spline, written and read (C83). -/

namespace Dxf

/-- The pairs with one of the codes. -/
def inCodes (cs : List Int) (ps : List CodePair) : List CodePair := ps.filter fun p => decide (p.code ∈ cs)

theorem inCodes_append (cs : List Int) (a b : List CodePair) :
    inCodes cs (a ++ b) = inCodes cs a ++ inCodes cs b := List.filter_append ..

theorem inCodes_none {cs : List Int} {ps : List CodePair} (h : ∀ p ∈ ps, p.code ∉ cs) :
    inCodes cs ps = [] :=
  List.filter_eq_nil_iff.mpr fun p hp => by simpa using h p hp

theorem inCodes_emitAll {ds : List Decl} (cs : List Int) (gs : List (GCmd ds)) (v : Version) (r : Rec ds) :
    inCodes cs (emitAll gs v r) =
      inCodes cs (emitAll (gs.filter fun g => cs.any fun c => g.mentions c) v r) := by
  induction gs with
  | nil => rfl
  | cons g gs ih =>
    have e : emitAll (g :: gs) v r = g.emit v r ++ emitAll gs v r := rfl
    rw [e, inCodes_append, ih, List.filter_cons]
    by_cases hg : (cs.any fun c => g.mentions c) = true
    · rw [if_pos hg]
      exact (inCodes_append cs _ _).symm
    · rw [if_neg hg, inCodes_none, List.nil_append]
      intro p hp hm
      exact hg (List.any_eq_true.mpr ⟨p.code, hm, decide_eq_true (emit_codes hp)⟩)

/-- The pairs of an entity without extension groups, attached entities apart. -/
theorem inCodes_pairs {k : EName} {v : Version} (hk : k.supported v = true) (n : Nat) (wh : Bool)
    {e : Entry k.decls} (he : e.ext = []) {cs : List Int} (hc : ∀ c ∈ cs, c ≠ 0 ∧ c < 1000) :
    inCodes cs (k.pairs n v wh e []) = inCodes cs (emitAll
      (((commonHead k.kind.spec wh ++ commonCmds k.kind.spec wh) ++ k.kind.cmds n).filter
        fun g => cs.any fun c => g.mentions c) v e.fields) := by
  unfold EName.pairs EName.front
  rw [if_pos hk, he, ← inCodes_emitAll, emitAll_append, emitAll_append, emitAll_append]
  have hx : inCodes cs (e.xdata.flatMap fun x => x.pairs v) = [] :=
    inCodes_none fun p hp hm => by
      have := OName.xdata_codes e.xdata v p hp
      have := hc _ hm
      omega
  have h2 : inCodes cs [CodePair.newStr 0 k.kind.typeString] = [] :=
    inCodes_none fun p hp hm => by
      rw [List.mem_singleton.mp hp] at hm
      exact (hc _ hm).1 rfl
  rw [inCodes_append, hx, ← List.singleton_append]
  simp only [inCodes_append, h2, List.flatMap_nil, ite_self, List.append_nil, List.nil_append,
    List.append_assoc]

theorem inCodes_points (c : Int) (ps : List Point) :
    inCodes [c, c + 10, c + 20] (Curve.points c ps ++ []) = Curve.points c ps := by
  rw [List.append_nil]
  refine List.filter_eq_self.mpr fun p hp => ?_
  obtain ⟨q, -, hq⟩ := List.mem_flatMap.mp hp
  simp only [Point.coded, List.mem_cons, List.not_mem_nil, or_false] at hq
  obtain rfl | rfl | rfl := hq <;> simp [CodePair.newF64]

/-- The record of a spline. -/
abbrev SplineRec := Rec (commonDecls ++ Ent.splineSpec)

def SplineRec.control (r : SplineRec) : PtAcc := r 31
def SplineRec.fit (r : SplineRec) : PtAcc := r 32

/-- The code of a coordinate. -/
def coordCode (c : Int) : Axis → Int
  | .x => c
  | .y => c + 10
  | .z => c + 20

/-- One pair, seen from the control points. -/
theorem control_step {r r' : SplineRec} {p : CodePair} (h : applyPair Ent.splineArms r p = .ok r') :
    (p.code ∉ [(10 : Int), 20, 30] ∧ SplineRec.control r' = SplineRec.control r) ∨
    ∃ a v, p.code = coordCode 10 a ∧ p.assertF64 = .ok v ∧
      SplineRec.control r' = (SplineRec.control r).push a v := by
  have own : ∀ a : Axis, p.code = coordCode 10 a → ∃ v, p.assertF64 = .ok v ∧
      SplineRec.control r' = (SplineRec.control r).push a v := by
    intro a hc
    have h' : Act.apply r p (.on 31 (.pushAxis a)) = .ok r' := by
      unfold applyPair at h
      rw [hc] at h
      cases a <;> exact h
    obtain ⟨y, hy, rfl⟩ := on_apply h'
    cases hv : p.assertF64 with
    | error e =>
      simp only [FRead.apply, hv, Except.map] at hy
      cases hy
    | ok v =>
      simp only [FRead.apply, hv, Except.map] at hy
      cases hy
      exact ⟨v, rfl, Rec.set_self (i := 31) r _⟩
  by_cases hx : p.code = 10
  · exact .inr ⟨.x, (own .x hx).imp fun v hv => ⟨hx, hv⟩⟩
  by_cases hy : p.code = 20
  · exact .inr ⟨.y, (own .y hy).imp fun v hv => ⟨hy, hv⟩⟩
  by_cases hz : p.code = 30
  · exact .inr ⟨.z, (own .z hz).imp fun v hv => ⟨hz, hv⟩⟩
  · have hn : p.code ∉ [(10 : Int), 20, 30] := by
      simp only [List.mem_cons, List.not_mem_nil, or_false, not_or]
      exact ⟨hx, hy, hz⟩
    exact .inl ⟨hn, arm_other (cs := [10, 20, 30]) (i := 31) (by decide +kernel) hn h⟩

/-- One pair, seen from the fit points. -/
theorem fit_step {r r' : SplineRec} {p : CodePair} (h : applyPair Ent.splineArms r p = .ok r') :
    (p.code ∉ [(11 : Int), 21, 31] ∧ SplineRec.fit r' = SplineRec.fit r) ∨
    ∃ a v, p.code = coordCode 11 a ∧ p.assertF64 = .ok v ∧
      SplineRec.fit r' = (SplineRec.fit r).push a v := by
  have own : ∀ a : Axis, p.code = coordCode 11 a → ∃ v, p.assertF64 = .ok v ∧
      SplineRec.fit r' = (SplineRec.fit r).push a v := by
    intro a hc
    have h' : Act.apply r p (.on 32 (.pushAxis a)) = .ok r' := by
      unfold applyPair at h
      rw [hc] at h
      cases a <;> exact h
    obtain ⟨y, hy, rfl⟩ := on_apply h'
    cases hv : p.assertF64 with
    | error e =>
      simp only [FRead.apply, hv, Except.map] at hy
      cases hy
    | ok v =>
      simp only [FRead.apply, hv, Except.map] at hy
      cases hy
      exact ⟨v, rfl, Rec.set_self (i := 32) r _⟩
  by_cases hx : p.code = 11
  · exact .inr ⟨.x, (own .x hx).imp fun v hv => ⟨hx, hv⟩⟩
  by_cases hy : p.code = 21
  · exact .inr ⟨.y, (own .y hy).imp fun v hv => ⟨hy, hv⟩⟩
  by_cases hz : p.code = 31
  · exact .inr ⟨.z, (own .z hz).imp fun v hv => ⟨hz, hv⟩⟩
  · have hn : p.code ∉ [(11 : Int), 21, 31] := by
      simp only [List.mem_cons, List.not_mem_nil, or_false, not_or]
      exact ⟨hx, hy, hz⟩
    exact .inl ⟨hn, arm_other (cs := [11, 21, 31]) (i := 32) (by decide +kernel) hn h⟩

/-- The points after all pairs. -/
theorem acc_fold {get : SplineRec → PtAcc} {c : Int}
    (step : ∀ {r r' : SplineRec} {p : CodePair}, applyPair Ent.splineArms r p = .ok r' →
      (p.code ∉ [c, c + 10, c + 20] ∧ get r' = get r) ∨
      ∃ a v, p.code = coordCode c a ∧ p.assertF64 = .ok v ∧ get r' = (get r).push a v)
    {ps : List CodePair} {xs ys zs : List F64}
    (hx : (withCode c ps).map CodePair.value = xs.map .double)
    (hy : (withCode (c + 10) ps).map CodePair.value = ys.map .double)
    (hz : (withCode (c + 20) ps).map CodePair.value = zs.map .double)
    {r r' : SplineRec} (h : foldPairs Ent.splineArms r ps = .ok r') :
    get r' = ⟨(get r).xs ++ xs, (get r).ys ++ ys, (get r).zs ++ zs, (get r).pts⟩ := by
  induction ps generalizing r xs ys zs with
  | nil =>
    cases h
    have nil : ∀ {k : Int} {l : List F64},
        (withCode k []).map CodePair.value = l.map CodePairValue.double → l = [] := by
      intro k l hl
      cases l with
      | nil => rfl
      | cons z l => cases hl
    rw [nil hx, nil hy, nil hz]
    simp
  | cons p ps ih =>
    obtain ⟨r1, h1, h2⟩ := fold_cons h
    have here : ∀ {k : Int}, p.code = k → withCode k (p :: ps) = p :: withCode k ps := by
      intro k hk
      unfold withCode
      rw [List.filter_cons, if_pos (decide_eq_true hk)]
    have away : ∀ {k : Int}, p.code ≠ k → withCode k (p :: ps) = withCode k ps := by
      intro k hk
      unfold withCode
      rw [List.filter_cons, if_neg (by simpa using hk)]
    obtain ⟨hn, he⟩ | ⟨a, v, ha, hv, he⟩ := step h1
    · simp only [List.mem_cons, List.not_mem_nil, or_false, not_or] at hn
      rw [away hn.1] at hx
      rw [away hn.2.1] at hy
      rw [away hn.2.2] at hz
      rw [ih hx hy hz h2, he]
    · have val : ∀ {z : F64}, p.value = .double z → z = v := fun hz => (double_of hv hz).symm
      cases a with
      | x =>
        have ha : p.code = c := ha
        rw [here ha] at hx
        rw [away (by omega)] at hy hz
        cases xs with
        | nil => cases hx
        | cons x xs =>
          rw [List.map_cons, List.map_cons, List.cons.injEq] at hx
          rw [ih hx.2 hy hz h2, he, val hx.1]
          simp [PtAcc.push]
      | y =>
        have ha : p.code = c + 10 := ha
        rw [here ha] at hy
        rw [away (by omega)] at hx hz
        cases ys with
        | nil => cases hy
        | cons y ys =>
          rw [List.map_cons, List.map_cons, List.cons.injEq] at hy
          rw [ih hx hy.2 hz h2, he, val hy.1]
          simp [PtAcc.push]
      | z =>
        have ha : p.code = c + 20 := ha
        rw [here ha] at hz
        rw [away (by omega)] at hx hy
        cases zs with
        | nil => cases hz
        | cons z zs =>
          rw [List.map_cons, List.map_cons, List.cons.injEq] at hz
          rw [ih hx hy hz.2 h2, he, val hz.1]
          simp [PtAcc.push]

/-- The points that are read. -/
theorem points_read {get : SplineRec → PtAcc} {c : Int}
    (step : ∀ {r r' : SplineRec} {p : CodePair}, applyPair Ent.splineArms r p = .ok r' →
      (p.code ∉ [c, c + 10, c + 20] ∧ get r' = get r) ∨
      ∃ a v, p.code = coordCode c a ∧ p.assertF64 = .ok v ∧ get r' = (get r).push a v)
    {ps : List CodePair} {P : List Point}
    (hx : (withCode c ps).map CodePair.value = P.map fun q => .double q.x)
    (hy : (withCode (c + 10) ps).map CodePair.value = P.map fun q => .double q.y)
    (hz : (withCode (c + 20) ps).map CodePair.value = P.map fun q => .double q.z)
    {r r' : SplineRec} (h0 : get r = ⟨[], [], [], []⟩) (h : foldPairs Ent.splineArms r ps = .ok r') :
    ((get r').combine true).pts = P := by
  have := acc_fold step (xs := P.map Point.x) (ys := P.map Point.y) (zs := P.map Point.z)
    (by rw [hx, List.map_map]; rfl) (by rw [hy, List.map_map]; rfl) (by rw [hz, List.map_map]; rfl) h
  rw [this, h0]
  exact combinePoints3_map P

/-- The numbers of a list that is read. -/
theorem list_fold {ds : List Decl} {arms : List (Arm ds)} {get : Rec ds → List F64} {c : Int}
    (other : ∀ r r' p, p.code ≠ c → applyPair arms r p = .ok r' → get r' = get r)
    (own : ∀ r r' p z, p.code = c → p.value = .double z → applyPair arms r p = .ok r' → get r' = get r ++ [z])
    {ps : List CodePair} {zs : List F64} (hp : (withCode c ps).map CodePair.value = zs.map .double)
    {r r' : Rec ds} (h : foldPairs arms r ps = .ok r') : get r' = get r ++ zs := by
  induction ps generalizing r zs with
  | nil =>
    cases h
    cases zs with
    | nil => simp
    | cons z zs => cases hp
  | cons p ps ih =>
    obtain ⟨r1, h1, h2⟩ := fold_cons h
    unfold withCode at hp
    rw [List.filter_cons] at hp
    by_cases hc : p.code = c
    · rw [if_pos (decide_eq_true hc)] at hp
      cases zs with
      | nil => cases hp
      | cons z zs =>
        rw [List.map_cons, List.map_cons, List.cons.injEq] at hp
        rw [ih hp.2 h2, own _ _ _ _ hc hp.1 h1]
        simp
    · rw [if_neg (by simpa using hc)] at hp
      rw [ih hp h2, other _ _ _ hc h1]

theorem push_own {p : CodePair} {z : F64} {o x : List F64} (hz : p.value = .double z)
    (h : FRead.apply (t := .list .f64) (.push .f64) o p = .ok x) : x = o ++ [z] := by
  have ha : p.assertF64 = .ok z := by rw [CodePair.assertF64, hz]
  simp only [FRead.apply, RConv.read, ha, Except.map] at h
  cases h
  rfl

theorem i16_own {p : CodePair} {n : I16} {o x : I32} (hz : p.value = .short n)
    (h : FRead.apply (t := .i32) (.set .i32OfI16) o p = .ok x) : x = n.signExtend 32 := by
  have ha : p.assertI16 = .ok n := by rw [CodePair.assertI16, hz]
  simp only [FRead.apply, RConv.read, ha, Except.map] at h
  cases h
  rfl

theorem trunc_sign (n : I16) : (n.signExtend 32).setWidth 16 = n := by
  ext i hi
  simp only [BitVec.getElem_setWidth]
  rw [BitVec.getLsbD_signExtend]
  simp [hi, show i < 32 by omega]

end Dxf
