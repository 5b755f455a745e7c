import Verif.Spec.Order
import Verif.Lemmas.InsertPlaces

/-! Steps that may be taken in another order. -/

namespace Dxf

/-! ### In general -/

/-- Steps one after another. -/
def foldAct {σ π : Type} (act : π → σ → Except DxfErr σ) : σ → List π → Except DxfErr σ
  | st, [] => .ok st
  | st, p :: ps => act p st >>= fun st' => foldAct act st' ps

/-- The second step may be taken before the first one. -/
def Swaps {σ π : Type} (act : π → σ → Except DxfErr σ) (p q : π) : Prop :=
  ∀ st st1 st2, act p st = .ok st1 → act q st1 = .ok st2 →
    ∃ st3, act q st = .ok st3 ∧ act p st3 = .ok st2

theorem except_bind_ok {ε α β : Type} {x : Except ε α} {f : α → Except ε β} {b : β}
    (h : (x >>= f) = .ok b) : ∃ a, x = .ok a ∧ f a = .ok b := by
  cases x with
  | error e => cases h
  | ok a => exact ⟨a, rfl, h⟩

theorem foldAct_cons {σ π : Type} {act : π → σ → Except DxfErr σ} {st st1 : σ} {p : π}
    (h : act p st = .ok st1) (ps : List π) : foldAct act st (p :: ps) = foldAct act st1 ps := by
  rw [foldAct, h]
  rfl

/-- A step may be taken later. -/
theorem foldAct_later {σ π : Type} {act : π → σ → Except DxfErr σ} {p : π} {l1 l2 : List π}
    (hs : ∀ q ∈ l1, Swaps act p q) : ∀ {st st' : σ},
    foldAct act st (p :: (l1 ++ l2)) = .ok st' → foldAct act st (l1 ++ p :: l2) = .ok st' := by
  induction l1 with
  | nil => exact fun h => h
  | cons q l1 ih =>
    intro st st' h
    obtain ⟨st1, h1, h2⟩ := except_bind_ok h
    obtain ⟨st2, h3, h4⟩ := except_bind_ok h2
    obtain ⟨st3, h5, h6⟩ := hs q (by simp) _ _ _ h1 h3
    rw [List.cons_append, foldAct_cons h5]
    refine ih (fun q hq => hs q (by simp [hq])) ?_
    rw [foldAct_cons h6]
    exact h4

theorem reordered_split {π κ : Type} [DecidableEq κ] {key : π → κ} {p : π} {ps qs : List π}
    (h : Reordered key (p :: ps) qs) :
    ∃ l1 l2, qs = l1 ++ p :: l2 ∧ (∀ q ∈ l1, key q ≠ key p) ∧ Reordered key ps (l1 ++ l2) := by
  have h1 := h (key p)
  rw [List.filter_cons_of_pos (by simp)] at h1
  obtain ⟨l1, l2, rfl, h2, h3, h4⟩ := List.filter_eq_cons_iff.mp h1.symm
  have h2' : ∀ q ∈ l1, key q ≠ key p := fun q hq he => h2 q hq (by simpa using he)
  refine ⟨l1, l2, rfl, h2', fun c => ?_⟩
  have h5 := h c
  rw [List.filter_append] at h5 ⊢
  by_cases hc : key p = c
  · rw [List.filter_cons_of_pos (by simpa using hc), List.filter_cons_of_pos (by simpa using hc)] at h5
    have h6 : l1.filter (fun p => decide (key p = c)) = [] := by
      rw [List.filter_eq_nil_iff]
      intro q hq he
      exact h2' q hq (by rw [hc]; simpa using he)
    rw [h6, List.nil_append] at h5 ⊢
    exact (List.cons.inj h5).2
  · rwa [List.filter_cons_of_neg (by simpa using hc), List.filter_cons_of_neg (by simpa using hc)]
      at h5

theorem Reordered.mem {π κ : Type} [DecidableEq κ] {key : π → κ} {ps qs : List π}
    (h : Reordered key ps qs) {q : π} : q ∈ qs ↔ q ∈ ps := by
  have h1 := h (key q)
  have : ∀ l : List π, q ∈ l.filter (fun p => decide (key p = key q)) ↔ q ∈ l := by
    intro l; simp
  rw [← this qs, ← h1, this]

theorem Reordered.length {π κ : Type} [DecidableEq κ] {key : π → κ} {ps : List π} :
    ∀ {qs : List π}, Reordered key ps qs → qs.length = ps.length := by
  induction ps with
  | nil =>
    intro qs h
    cases qs with
    | nil => rfl
    | cons q qs =>
      have := (h.mem (q := q)).mp (by simp)
      cases this
  | cons p ps ih =>
    intro qs h
    obtain ⟨l1, l2, rfl, _, h2⟩ := reordered_split h
    have := ih h2
    simp only [List.length_append, List.length_cons] at this ⊢
    omega

/-- Another order of steps that do not interfere gives the same result. -/
theorem foldAct_reordered {σ π κ : Type} [DecidableEq κ] {act : π → σ → Except DxfErr σ}
    {key : π → κ} {ps : List π} : ∀ {qs : List π}, Reordered key ps qs →
    (∀ p ∈ ps, ∀ q ∈ ps, key p ≠ key q → Swaps act p q) → ∀ {st st' : σ},
    foldAct act st ps = .ok st' → foldAct act st qs = .ok st' := by
  induction ps with
  | nil =>
    intro qs h _ st st' hf
    have := h.length
    rw [List.length_nil] at this
    rw [List.eq_nil_of_length_eq_zero this]
    exact hf
  | cons p ps ih =>
    intro qs h hs st st' hf
    obtain ⟨l1, l2, rfl, h1, h2⟩ := reordered_split h
    obtain ⟨st1, h3, h4⟩ := except_bind_ok hf
    refine foldAct_later (fun q hq => hs p (by simp) q (h.mem.mp (by simp [hq]))
      (h1 q hq).symm) ?_
    rw [foldAct_cons h3]
    exact ih h2 (fun p hp q hq => hs p (by simp [hp]) q (by simp [hq])) h4

/-! ### Arms -/

theorem Rec.set_comm {ds : List Decl} (r : Rec ds) {i j : Nat} (h : i ≠ j) (v : (tyAt ds i).den)
    (w : (tyAt ds j).den) : (r.set i v).set j w = (r.set j w).set i v := by
  funext n
  by_cases hi : n = i
  · subst hi
    rw [Rec.set_ne _ _ h, Rec.set_self, Rec.set_self]
  · by_cases hj : n = j
    · subst hj
      rw [Rec.set_self, Rec.set_ne _ _ hi, Rec.set_self]
    · rw [Rec.set_ne _ _ hj, Rec.set_ne _ _ hi, Rec.set_ne _ _ hi, Rec.set_ne _ _ hj]

theorem Rec.set_twice {ds : List Decl} (r : Rec ds) (i : Nat) (v w : (tyAt ds i).den) :
    (r.set i v).set i w = r.set i w := by
  funext n
  by_cases hi : n = i
  · subst hi
    rw [Rec.set_self, Rec.set_self]
  · rw [Rec.set_ne _ _ hi, Rec.set_ne _ _ hi, Rec.set_ne _ _ hi]

/-- The part of its field that an arm changes. -/
def FRead.part : {t : Ty} → FRead t → Option (Axis ⊕ LwField)
  | _, .axis a => some (.inl a)
  | _, .pushAxis a => some (.inl a)
  | _, .lwSet f => some (.inr f)
  | _, _ => none

/-- Two arms that change different parts of a field. -/
def FRead.apart {t t' : Ty} (f : FRead t) (g : FRead t') : Bool :=
  match f.part, g.part with
  | some a, some b => !decide (a = b)
  | _, _ => false

/-- Two arms that change different fields or different parts of a field. -/
def Act.apart {ds : List Decl} (a b : Act ds) : Bool :=
  match a, b with
  | .on i f, .on j g => !decide (i = j) || f.apart g
  | _, _ => false

theorem except_map_ok {ε α β : Type} {x : Except ε α} {f : α → β} {b : β}
    (h : x.map f = .ok b) : ∃ a, x = .ok a ∧ f a = b := by
  cases x with
  | error e => cases h
  | ok a => exact ⟨a, rfl, Except.ok.inj h⟩

theorem setField_fixed (v w : LwVertex) (p : CodePair) (f : LwField) {v' : LwVertex}
    (h : v.setField p f = .ok v') : ∃ w', w.setField p f = .ok w' := by
  cases f <;> unfold LwVertex.setField at h ⊢ <;> dsimp only at h ⊢ <;>
    obtain ⟨x, hx, -⟩ := except_map_ok h <;> rw [hx] <;> exact ⟨_, rfl⟩

theorem setField_swap {v v1 v2 : LwVertex} {p q : CodePair} {f g : LwField} (hfg : f ≠ g)
    (h1 : v.setField p f = .ok v1) (h2 : v1.setField q g = .ok v2) :
    ∃ v3, v.setField q g = .ok v3 ∧ v3.setField p f = .ok v2 := by
  cases f <;> cases g <;> first
    | exact absurd rfl hfg
    | (unfold LwVertex.setField at h1 h2 ⊢
       dsimp only at h1 h2 ⊢
       obtain ⟨x, hx, rfl⟩ := except_map_ok h1
       obtain ⟨y, hy, rfl⟩ := except_map_ok h2
       rw [hx, hy]
       exact ⟨_, rfl, rfl⟩)

theorem lwSet_ok {f : LwField} {old new : List LwVertex} {p : CodePair}
    (h : FRead.apply (.lwSet f) old p = .ok new) : ∃ l l' init, old = init ++ [l] ∧
      l.setField p f = .ok l' ∧ new = init ++ [l'] := by
  unfold FRead.apply at h
  dsimp only at h
  split at h
  · cases h
  · split at h
    · cases h
    · rename_i l hl
      obtain ⟨l', h1, h2⟩ := except_map_ok h
      refine ⟨l, l', List.dropLast old, ?_, h1, h2.symm⟩
      exact (List.dropLast_append_getLast? l hl).symm

theorem lwSet_run {f : LwField} {init : List LwVertex} {l l' : LwVertex} {p : CodePair}
    (h : l.setField p f = .ok l') :
    FRead.apply (.lwSet f) (init ++ [l] : List LwVertex) p = .ok (init ++ [l'] : List LwVertex) := by
  unfold FRead.apply
  dsimp only
  obtain ⟨w, hw⟩ := setField_fixed l LwVertex.dflt p f h
  rw [hw]
  dsimp only
  have e1 : List.getLast? (init ++ [l]) = some l := by simp
  have e2 : List.dropLast (init ++ [l]) = init := by simp
  simp only [e1]
  rw [h]
  change Except.ok (List.append (List.dropLast (init ++ [l])) [l']) = _
  rw [e2]
  rfl

theorem FRead.apply_swap {t : Ty} {f g : FRead t} (hfg : f.apart g = true) {p q : CodePair}
    {v v1 v2 : t.den} (h1 : f.apply v p = .ok v1) (h2 : g.apply v1 q = .ok v2) :
    ∃ v3, g.apply v q = .ok v3 ∧ f.apply v3 p = .ok v2 := by
  cases f with
  | axis a =>
    cases g <;> try (exfalso; revert hfg; simp [FRead.apart, FRead.part]; done)
    rename_i b
    have hab : a ≠ b := by simpa [FRead.apart, FRead.part] using hfg
    unfold FRead.apply at h1 h2 ⊢
    dsimp only at h1 h2 ⊢
    obtain ⟨x, hx, rfl⟩ := except_map_ok h1
    obtain ⟨y, hy, rfl⟩ := except_map_ok h2
    rw [hx, hy]
    refine ⟨_, rfl, ?_⟩
    cases a <;> cases b <;> first | exact absurd rfl hab | rfl
  | pushAxis a =>
    cases g <;> try (exfalso; revert hfg; simp [FRead.apart, FRead.part]; done)
    rename_i b
    have hab : a ≠ b := by simpa [FRead.apart, FRead.part] using hfg
    unfold FRead.apply at h1 h2 ⊢
    dsimp only at h1 h2 ⊢
    obtain ⟨x, hx, rfl⟩ := except_map_ok h1
    obtain ⟨y, hy, rfl⟩ := except_map_ok h2
    rw [hx, hy]
    refine ⟨_, rfl, ?_⟩
    cases a <;> cases b <;> first | exact absurd rfl hab | rfl
  | lwSet a =>
    cases g <;> try (exfalso; revert hfg; simp [FRead.apart, FRead.part]; done)
    rename_i b
    have hab : a ≠ b := by simpa [FRead.apart, FRead.part] using hfg
    obtain ⟨l, l', init, rfl, h3, rfl⟩ := lwSet_ok h1
    obtain ⟨m, m', init', e, h4, rfl⟩ := lwSet_ok h2
    obtain ⟨rfl, e'⟩ := List.append_inj' e rfl
    cases (List.cons.inj e').1
    obtain ⟨n, h5, h6⟩ := setField_swap hab h3 h4
    exact ⟨_, lwSet_run h5, lwSet_run h6⟩
  | set c => exact absurd hfg (by simp [FRead.apart, FRead.part])
  | push c => exact absurd hfg (by simp [FRead.apart, FRead.part])
  | lwNew => exact absurd hfg (by simp [FRead.apart, FRead.part])

theorem Act.apply_swap {ds : List Decl} {a b : Act ds} (hab : a.apart b = true) {p q : CodePair}
    {r r1 r2 : Rec ds} (h1 : a.apply r p = .ok r1) (h2 : b.apply r1 q = .ok r2) :
    ∃ r3, b.apply r q = .ok r3 ∧ a.apply r3 p = .ok r2 := by
  cases a with
  | custom ts f => exact absurd hab (by simp [Act.apart])
  | on i f =>
    cases b with
    | custom ts f => exact absurd hab (by simp [Act.apart])
    | on j g =>
      unfold Act.apply at h1 h2 ⊢
      dsimp only at h1 h2 ⊢
      obtain ⟨v, hv, rfl⟩ := except_map_ok h1
      obtain ⟨w, hw, rfl⟩ := except_map_ok h2
      by_cases hij : i = j
      · subst hij
        rw [Rec.set_self] at hw
        obtain ⟨x, hx, hy⟩ := FRead.apply_swap (by simpa [Act.apart] using hab) hv hw
        refine ⟨r.set i x, by rw [hx]; rfl, ?_⟩
        rw [Rec.set_self, hy]
        change Except.ok ((r.set i x).set i w) = _
        rw [Rec.set_twice, Rec.set_twice]
      · rw [Rec.set_ne _ _ (Ne.symm hij)] at hw
        refine ⟨r.set j w, by rw [hw]; rfl, ?_⟩
        rw [Rec.set_ne _ _ hij, hv]
        change Except.ok ((r.set j w).set i v) = _
        rw [Rec.set_comm _ hij]

/-- The pairs of codes of arms that get in each other's way. -/
def clashing {ds : List Decl} (arms : List (Arm ds)) : List (Int × Int) :=
  arms.flatMap fun a => arms.filterMap fun b =>
    if decide (a.code < b.code) && !a.act.apart b.act then some (a.code, b.code) else none

theorem findArm_mem {ds : List Decl} {arms : List (Arm ds)} {c : Int} {a : Arm ds}
    (h : findArm arms c = some a) : a ∈ arms ∧ a.code = c := by
  unfold findArm at h
  exact ⟨List.mem_of_find?_eq_some h, by simpa using List.find?_some h⟩

theorem FRead.apart_symm {t t' : Ty} (f : FRead t) (g : FRead t') : f.apart g = g.apart f := by
  unfold FRead.apart
  cases f.part <;> cases g.part <;> simp [eq_comm]

theorem Act.apart_symm {ds : List Decl} (a b : Act ds) : a.apart b = b.apart a := by
  cases a <;> cases b <;> simp [Act.apart, eq_comm, FRead.apart_symm]

/-- The second arm may be applied before the first one. -/
def Act.Swap {ds : List Decl} (a b : Act ds) : Prop :=
  ∀ (p q : CodePair) (r r1 r2 : Rec ds), a.apply r p = .ok r1 → b.apply r1 q = .ok r2 →
    ∃ r3, b.apply r q = .ok r3 ∧ a.apply r3 p = .ok r2

/-- Arms that do not get in each other's way. -/
def ArmsSwap {ds : List Decl} (arms : List (Arm ds)) (bad : List (Int × Int)) : Prop :=
  ∀ a ∈ arms, ∀ b ∈ arms, a.code ≠ b.code → (a.code, b.code) ∉ bad → (b.code, a.code) ∉ bad →
    a.act.Swap b.act

theorem armsSwap_of {ds : List Decl} {arms : List (Arm ds)} {bad : List (Int × Int)}
    (hb : ∀ x ∈ clashing arms, x ∈ bad) : ArmsSwap arms bad := by
  intro a ma b mb hab h1 h2 p q r r1 r2 hp hq
  refine Act.apply_swap ?_ hp hq
  have key : ∀ a ∈ arms, ∀ b ∈ arms, a.code < b.code → (a.code, b.code) ∉ bad →
      a.act.apart b.act = true := by
    intro a ma b mb hlt hn
    cases he : a.act.apart b.act with
    | true => rfl
    | false =>
      refine absurd (hb _ ?_) hn
      unfold clashing
      rw [List.mem_flatMap]
      refine ⟨a, ma, ?_⟩
      rw [List.mem_filterMap]
      exact ⟨b, mb, by simp [hlt, he]⟩
  rcases Int.lt_or_gt_of_ne hab with hlt | hlt
  · exact key a ma b mb hlt h1
  · rw [Act.apart_symm]
    exact key b mb a ma hlt h2

/-- The arms of codes that are not fixed. -/
def freeArms {ds : List Decl} (fixed : List Int) (arms : List (Arm ds)) : List (Arm ds) :=
  arms.filter fun a => !fixed.contains a.code

theorem findArm_free {ds : List Decl} (fixed : List Int) (arms : List (Arm ds)) {c : Int}
    (h : c ∉ fixed) : findArm (freeArms fixed arms) c = findArm arms c := by
  unfold freeArms findArm
  rw [List.find?_filter]
  congr 1
  funext a
  by_cases hc : a.code = c
  · subst hc
    simp [h]
  · simp [hc]

theorem applyPair_free {ds : List Decl} (fixed : List Int) (arms : List (Arm ds)) (r : Rec ds)
    {p : CodePair} (h : p.code ∉ fixed) : applyPair (freeArms fixed arms) r p = applyPair arms r p := by
  unfold applyPair
  rw [findArm_free fixed arms h]

/-- Pairs whose arms do not get in each other's way. -/
theorem applyPair_swap {ds : List Decl} {arms : List (Arm ds)} {bad : List (Int × Int)}
    (hb : ArmsSwap arms bad) {p q : CodePair} (hpq : p.code ≠ q.code)
    (h1 : (p.code, q.code) ∉ bad) (h2 : (q.code, p.code) ∉ bad) {r r1 r2 : Rec ds}
    (hp : applyPair arms r p = .ok r1) (hq : applyPair arms r1 q = .ok r2) :
    ∃ r3, applyPair arms r q = .ok r3 ∧ applyPair arms r3 p = .ok r2 := by
  unfold applyPair at hp hq ⊢
  cases ha : findArm arms p.code with
  | none =>
    rw [ha] at hp
    cases hp
    exact ⟨r2, hq, rfl⟩
  | some a =>
    cases hb' : findArm arms q.code with
    | none =>
      rw [hb'] at hq
      cases hq
      exact ⟨r, rfl, by rw [ha] at hp; exact hp⟩
    | some b =>
      rw [ha] at hp
      rw [hb'] at hq
      dsimp only at hp hq ⊢
      obtain ⟨ma, ca⟩ := findArm_mem ha
      obtain ⟨mb, cb⟩ := findArm_mem hb'
      exact hb a ma b mb (by rw [ca, cb]; exact hpq) (by rw [ca, cb]; exact h1)
        (by rw [ca, cb]; exact h2) _ _ _ _ _ hp hq

end Dxf
