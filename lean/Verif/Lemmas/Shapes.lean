import Verif.Model.Shapes
import Verif.Lemmas.Count
import Verif.Lemmas.ObjectRead
import Verif.Lemmas.InsertItems

/-! The pairs of one code: what is written, and what becomes of it when it is read. -/

namespace Dxf

/-! ### Writing -/

/-- The pairs with a code. -/
def withCode (c : Int) (ps : List CodePair) : List CodePair := ps.filter fun p => decide (p.code = c)

theorem withCode_append (c : Int) (a b : List CodePair) :
    withCode c (a ++ b) = withCode c a ++ withCode c b := List.filter_append ..

theorem withCode_none {c : Int} {ps : List CodePair} (h : ∀ p ∈ ps, p.code ≠ c) : withCode c ps = [] :=
  List.filter_eq_nil_iff.mpr fun p hp => by simpa using h p hp

theorem withCode_emitAll {ds : List Decl} (c : Int) (gs : List (GCmd ds)) (v : Version) (r : Rec ds) :
    withCode c (emitAll gs v r) = withCode c (emitAll (gs.filter (GCmd.mentions c)) v r) := by
  induction gs with
  | nil => rfl
  | cons g gs ih =>
    have e : emitAll (g :: gs) v r = g.emit v r ++ emitAll gs v r := rfl
    rw [e, withCode_append, ih, List.filter_cons]
    by_cases hg : g.mentions c = true
    · rw [if_pos hg]
      exact (withCode_append c _ _).symm
    · rw [if_neg hg, withCode_none, List.nil_append]
      rintro p hp rfl
      exact hg (decide_eq_true (emit_codes hp))

/-- The pairs of an entity without extension groups, attached entities apart. -/
theorem withCode_pairs {k : EName} {v : Version} (hk : k.supported v = true) (n : Nat) (wh : Bool)
    {e : Entry k.decls} (he : e.ext = []) {c : Int} (h0 : c ≠ 0) (h1 : c < 1000) :
    withCode c (k.pairs n v wh e []) = withCode c (emitAll
      (((commonHead k.kind.spec wh ++ commonCmds k.kind.spec wh) ++ k.kind.cmds n).filter
        (GCmd.mentions c)) v e.fields) := by
  unfold EName.pairs EName.front
  rw [if_pos hk, he, ← withCode_emitAll, emitAll_append, emitAll_append, emitAll_append]
  have hx : withCode c (e.xdata.flatMap fun x => x.pairs v) = [] :=
    withCode_none fun p hp => by
      have := OName.xdata_codes e.xdata v p hp
      omega
  have h2 : withCode c [CodePair.newStr 0 k.kind.typeString] = [] :=
    withCode_none fun p hp => by
      rw [List.mem_singleton.mp hp]
      exact fun h => h0 h.symm
  rw [withCode_append, hx, ← List.singleton_append]
  simp only [withCode_append, h2, List.flatMap_nil, ite_self, List.append_nil, List.nil_append,
    List.append_assoc]

/-! ### Reading -/

/-- A number in a record: a coordinate of a point, or a field. -/
inductive Spot where
  | axis (i : Nat) (a : Axis)
  | num (i : Nat)

def Ty.axisOf : (t : Ty) → t.den → Axis → Option F64
  | .point, p, a => some (Point.axis p a)
  | _, _, _ => none

def Ty.numOf : (t : Ty) → t.den → Option F64
  | .f64, x => some x
  | _, _ => none

/-- The value at the spot. -/
def Spot.get {ds : List Decl} (r : Rec ds) : Spot → Option F64
  | .axis i a => Ty.axisOf (tyAt ds i) (r i) a
  | .num i => Ty.numOf (tyAt ds i) (r i)

def FRead.axis? : {t : Ty} → FRead t → Option Axis
  | _, .axis a => some a
  | _, _ => none

def FRead.num? : {t : Ty} → FRead t → Bool
  | _, .set .f64 => true
  | _, _ => false

/-- The arm does not touch the spot. -/
def Act.spares {ds : List Decl} (s : Spot) : Act ds → Bool
  | .on j f => match s with
    | .axis i a => decide (j ≠ i) || f.axis?.any fun b => decide (b ≠ a)
    | .num i => decide (j ≠ i)
  | .custom _ _ => false

/-- The arm sets the spot. -/
def Act.gives {ds : List Decl} (s : Spot) : Act ds → Bool
  | .on j f => match s with
    | .axis i a => decide (j = i) && decide (f.axis? = some a)
    | .num i => decide (j = i) && f.num?
  | .custom _ _ => false

theorem axis_other {t : Ty} {f : FRead t} {a b : Axis} (hf : f.axis? = some b) (hb : b ≠ a) {x y : t.den}
    {p : CodePair} (h : f.apply x p = .ok y) : Ty.axisOf t y a = Ty.axisOf t x a := by
  cases f with
  | axis b' =>
    cases hf
    cases hp : p.assertF64 with
    | error => simp [FRead.apply, hp, Except.map] at h
    | ok z =>
      simp only [FRead.apply, hp, Except.map] at h
      cases h
      revert hb
      cases a <;> cases b <;> first | (intro h; exact absurd rfl h) | (intro _; rfl)
  | _ => cases hf

theorem axis_own {t : Ty} {f : FRead t} {a : Axis} (hf : f.axis? = some a) {x y : t.den}
    {p : CodePair} {z : F64} (hp : p.value = .double z) (h : f.apply x p = .ok y) :
    Ty.axisOf t y a = some z := by
  cases f with
  | axis b' =>
    cases hf
    have hp : p.assertF64 = .ok z := by rw [CodePair.assertF64, hp]
    simp only [FRead.apply, hp, Except.map] at h
    cases h
    cases a <;> rfl
  | _ => cases hf

theorem num_own {t : Ty} {f : FRead t} (hf : f.num? = true) {x y : t.den}
    {p : CodePair} {z : F64} (hp : p.value = .double z) (h : f.apply x p = .ok y) :
    Ty.numOf t y = some z := by
  unfold FRead.num? at hf
  split at hf
  · have hp : p.assertF64 = .ok z := by rw [CodePair.assertF64, hp]
    simp only [FRead.apply, RConv.read, hp] at h
    cases h
    rfl
  · cases hf

theorem on_apply {ds : List Decl} {j : Nat} {f : FRead (tyAt ds j)} {r r' : Rec ds} {p : CodePair}
    (h : (Act.on j f).apply r p = .ok r') : ∃ x, f.apply (r j) p = .ok x ∧ r' = r.set j x := by
  cases hx : f.apply (r j) p with
  | error => simp [Act.apply, hx, Except.map] at h
  | ok x =>
    simp only [Act.apply, hx, Except.map, Except.ok.injEq] at h
    exact ⟨x, rfl, h.symm⟩

theorem Act.spares_apply {ds : List Decl} {s : Spot} {act : Act ds} (hs : act.spares s = true)
    {r r' : Rec ds} {p : CodePair} (h : act.apply r p = .ok r') : s.get r' = s.get r := by
  cases act with
  | custom ts f => cases hs
  | on j f =>
    obtain ⟨x, hx, rfl⟩ := on_apply h
    cases s with
    | num i =>
      have hj : j ≠ i := of_decide_eq_true hs
      simp only [Spot.get]
      rw [Rec.set_ne r x (Ne.symm hj)]
    | axis i a =>
      simp only [Spot.get]
      by_cases hj : j = i
      · subst hj
        rw [Rec.set_self]
        simp only [Act.spares, ne_eq, not_true_eq_false, decide_false, Bool.false_or] at hs
        cases hb : f.axis? with
        | none => simp [hb] at hs
        | some b =>
          rw [hb] at hs
          exact axis_other hb (of_decide_eq_true hs) hx
      · rw [Rec.set_ne r x (Ne.symm hj)]

theorem Act.gives_apply {ds : List Decl} {s : Spot} {act : Act ds} (hs : act.gives s = true)
    {r r' : Rec ds} {p : CodePair} {z : F64} (hp : p.value = .double z) (h : act.apply r p = .ok r') :
    s.get r' = some z := by
  cases act with
  | custom ts f => cases hs
  | on j f =>
    obtain ⟨x, hx, rfl⟩ := on_apply h
    cases s with
    | num i =>
      simp only [Act.gives, Bool.and_eq_true, decide_eq_true_eq] at hs
      obtain ⟨rfl, hf⟩ := hs
      simp only [Spot.get]
      rw [Rec.set_self]
      exact num_own hf hp hx
    | axis i a =>
      simp only [Act.gives, Bool.and_eq_true, decide_eq_true_eq] at hs
      obtain ⟨rfl, hf⟩ := hs
      simp only [Spot.get]
      rw [Rec.set_self]
      exact axis_own hf hp hx

/-- The code, and no other one, sets the spot. -/
def Spot.fits {ds : List Decl} (arms : List (Arm ds)) (c : Int) (s : Spot) : Bool :=
  (arms.all fun a => if a.code = c then a.act.gives s else a.act.spares s) &&
    arms.any fun a => decide (a.code = c)

theorem findArm_mem {ds : List Decl} {arms : List (Arm ds)} {c : Int} {a : Arm ds}
    (h : findArm arms c = some a) : a ∈ arms ∧ a.code = c :=
  ⟨List.mem_of_find?_eq_some h, by simpa using List.find?_some h⟩

theorem fits_other {ds : List Decl} {arms : List (Arm ds)} {c : Int} {s : Spot}
    (hf : s.fits arms c = true) {r r' : Rec ds} {p : CodePair} (hp : p.code ≠ c)
    (h : applyPair arms r p = .ok r') : s.get r' = s.get r := by
  unfold applyPair at h
  cases ha : findArm arms p.code with
  | none =>
    rw [ha] at h
    cases h
    rfl
  | some a =>
    rw [ha] at h
    obtain ⟨hm, hc⟩ := findArm_mem ha
    have := List.all_eq_true.mp (Bool.and_eq_true_iff.mp hf).1 a hm
    rw [if_neg (hc ▸ hp)] at this
    exact Act.spares_apply this h

theorem fits_own {ds : List Decl} {arms : List (Arm ds)} {c : Int} {s : Spot}
    (hf : s.fits arms c = true) {r r' : Rec ds} {p : CodePair} (hp : p.code = c) {z : F64}
    (hz : p.value = .double z) (h : applyPair arms r p = .ok r') : s.get r' = some z := by
  unfold applyPair at h
  cases ha : findArm arms p.code with
  | none =>
    obtain ⟨a, hm, hc⟩ := List.any_eq_true.mp (Bool.and_eq_true_iff.mp hf).2
    have := List.find?_eq_none.mp ha a hm
    rw [hp] at this
    exact absurd hc this
  | some a =>
    rw [ha] at h
    obtain ⟨hm, hc⟩ := findArm_mem ha
    have := List.all_eq_true.mp (Bool.and_eq_true_iff.mp hf).1 a hm
    rw [if_pos (hc.trans hp)] at this
    exact Act.gives_apply this hz h

theorem fold_cons {ds : List Decl} {arms : List (Arm ds)} {p : CodePair} {ps : List CodePair}
    {r r' : Rec ds} (h : foldPairs arms r (p :: ps) = .ok r') :
    ∃ r1, applyPair arms r p = .ok r1 ∧ foldPairs arms r1 ps = .ok r' := by
  rw [foldPairs] at h
  cases h1 : applyPair arms r p with
  | error e => rw [h1] at h; cases h
  | ok r1 =>
    rw [h1] at h
    exact ⟨r1, rfl, h⟩

theorem fold_other {ds : List Decl} {arms : List (Arm ds)} {c : Int} {s : Spot}
    (hf : s.fits arms c = true) {ps : List CodePair} (hp : withCode c ps = []) {r r' : Rec ds}
    (h : foldPairs arms r ps = .ok r') : s.get r' = s.get r := by
  induction ps generalizing r with
  | nil => cases h; rfl
  | cons p ps ih =>
    obtain ⟨r1, h1, h2⟩ := fold_cons h
    have := List.filter_eq_nil_iff.mp hp
    have hc : p.code ≠ c := by simpa using this p List.mem_cons_self
    rw [ih (List.filter_eq_nil_iff.mpr fun q hq => this q (List.mem_cons_of_mem _ hq)) h2]
    exact fits_other hf hc h1

theorem fold_own {ds : List Decl} {arms : List (Arm ds)} {c : Int} {s : Spot}
    (hf : s.fits arms c = true) {ps : List CodePair} {z : F64}
    (hp : (withCode c ps).map CodePair.value = [.double z]) {r r' : Rec ds}
    (h : foldPairs arms r ps = .ok r') : s.get r' = some z := by
  induction ps generalizing r with
  | nil => cases hp
  | cons p ps ih =>
    obtain ⟨r1, h1, h2⟩ := fold_cons h
    unfold withCode at hp
    rw [List.filter_cons] at hp
    by_cases hc : p.code = c
    · rw [if_pos (decide_eq_true hc), List.map_cons, List.cons.injEq, List.map_eq_nil_iff] at hp
      rw [fold_other hf hp.2 h2]
      exact fits_own hf hc hp.1 h1
    · rw [if_neg (by simpa using hc)] at hp
      exact ih hp h2

theorem get_finish {ds : List Decl} (r : Rec ds) (s : Spot) : s.get r.finish = s.get r := by
  have h1 : ∀ (t : Ty) (x : t.den) a, Ty.axisOf t (Ty.finish t x) a = Ty.axisOf t x a := by
    intro t x a
    cases t <;> rfl
  have h2 : ∀ (t : Ty) (x : t.den), Ty.numOf t (Ty.finish t x) = Ty.numOf t x := by
    intro t x
    cases t <;> rfl
  cases s with
  | axis i a => exact h1 _ _ _
  | num i => exact h2 _ _

/-- What the loop over the pairs of an entity does. -/
theorem loop_fold {k : EName} {arms : List (Arm k.decls)} (ha : ∀ m, k.kind.arms m = arms)
    (hn : ∀ m p, k.kind.next m p = m) {ps : List CodePair}
    (hc : ∀ p ∈ ps, plainCode p.code = true) {q : CodePair} (hq : q.code = 0) {s t : Stream} {fuel : Nat}
    {st st' : Mode × Entry k.decls}
    (h : itemLoop k.kind.eof k.step fuel st (toStream ps ++ some (.ok q) :: s) = (.ok st', t)) :
    foldPairs arms st.2.fields ps = .ok st'.2.fields := by
  induction ps generalizing st fuel with
  | nil =>
    cases fuel with
    | zero => cases h
    | succ f =>
      rw [itemLoop, toStream_nil, List.nil_append, Rd.bind_ok (Rd.next?_cons (by omega) _)] at h
      change (if q.code = 0 then (Rd.putBack q >>= fun _ => pure st)
        else (k.step q st >>= fun st' => itemLoop k.kind.eof k.step f st')) s = _ at h
      rw [if_pos hq] at h
      cases h
      rfl
  | cons p ps ih =>
    cases fuel with
    | zero => cases h
    | succ f =>
      have hp := hc p List.mem_cons_self
      simp only [plainCode, ne_eq, Bool.and_eq_true, decide_eq_true_eq, decide_not,
        Bool.not_eq_true', decide_eq_false_iff_not] at hp
      rw [itemLoop, toStream_cons, List.cons_append, Rd.bind_ok (Rd.next?_cons hp.2 _)] at h
      change (if p.code = 0 then (Rd.putBack p >>= fun _ => pure st)
        else (k.step p st >>= fun st' => itemLoop k.kind.eof k.step f st')) _ = _ at h
      rw [if_neg hp.1.1.1] at h
      rw [foldPairs]
      have hs : ∀ s, k.step p st s = ((applyPair arms st.2.fields p).map fun r =>
          (st.1, { st.2 with fields := r }), s) := by
        intro s
        unfold EName.step Entry.apply
        rw [if_neg hp.1.1.2, if_neg hp.1.2, ha, hn]
        cases applyPair arms st.2.fields p <;> rfl
      change Rd.bind _ _ _ = _ at h
      unfold Rd.bind at h
      rw [hs] at h
      cases h1 : applyPair arms st.2.fields p with
      | error e =>
        rw [h1] at h
        cases h
      | ok r =>
        rw [h1] at h
        exact ih (fun q hq => hc q (List.mem_cons_of_mem _ hq)) h

/-- What is read for an entity of a kind that is read pair by pair. -/
theorem nextEntity_fold {k : EName} {arms : List (Arm k.decls)} (ha : ∀ m, k.kind.arms m = arms)
    (hn : ∀ m p, k.kind.next m p = m) (hsub : ∀ m, k.kind.sub m = some 0) {op q : CodePair} {x : Str}
    (hop : op.code = 0) (hv : op.value = .str x) (hx : EName.ofType x = some k)
    (he : x ≠ str!"ENDSEC" ∧ x ≠ str!"ENDBLK") {ps : List CodePair}
    (hc : ∀ p ∈ ps, plainCode p.code = true) (hq : q.code = 0) {s t : Stream} {f : Flat}
    (h : nextEntity (some (.ok op) :: (toStream ps ++ some (.ok q) :: s)) = (.ok (some f), t)) :
    ∃ r ext xdata, foldPairs arms (Rec.dflt k.decls) ps = .ok r ∧
      f = ⟨k, 0, ⟨Rec.finish r, ext, xdata⟩⟩ := by
  rw [nextEntity_some, readEntity] at h
  have h := (Rd.bind_ok (Rd.next_cons (by omega) _)).symm.trans h
  rw [if_pos hop] at h
  have h := (Rd.bind_ok (m := Rd.lift op.assertString) (a := x) (s := toStream ps ++ some (.ok q) :: s)
    (s' := toStream ps ++ some (.ok q) :: s)
    (by unfold CodePair.assertString; rw [hv]; rfl)).symm.trans h
  rw [if_neg (by rintro (h | h); exacts [he.1 h, he.2 h]), hx] at h
  change Rd.bind _ _ _ = _ at h
  unfold Rd.bind Rd.withFuel at h
  beta_reduce at h
  cases hl : itemLoop k.kind.eof k.step ((toStream ps ++ some (.ok q) :: s).length + 1)
      (Mode.start, Entry.dflt k.decls) (toStream ps ++ some (.ok q) :: s) with
  | mk st t' =>
    rw [hl] at h
    cases st with
    | error e => cases h
    | ok st =>
      dsimp only at h
      rw [hsub] at h
      cases h
      exact ⟨_, _, _, loop_fold ha hn hc hq hl, rfl⟩

end Dxf
