import Verif.Spec.Header
import Verif.Lemmas.Record
import Verif.Lemmas.Rd
import Verif.Lemmas.Good

/-! Reading the pairs written for a header. -/

namespace Dxf

variable {ds : List Decl}

/-- The pairs of one variable, without the loop. -/
def foldVar (vars : List (HVar ds)) (name : Str) (r : Rec ds) :
    List CodePair → Except DxfErr (Rec ds)
  | [] => .ok r
  | p :: ps =>
    match setHeaderValue vars name p r with
    | .ok r' => foldVar vars name r' ps
    | .error e => .error e

/-- The stream goes on with a pair that ends the values of a variable. -/
def EndsVar (rest : Stream) : Prop :=
  ∃ q s, rest = some (.ok q) :: s ∧ (q.code = 0 ∨ q.code = 9)

theorem headerValues_fold (vars : List (HVar ds)) (name : Str) (ps : List CodePair)
    (hps : ∀ p ∈ ps, p.code ≠ 0 ∧ p.code ≠ 9 ∧ p.code ≠ 999) (rest : Stream) (hr : EndsVar rest)
    (r r' : Rec ds) (h : foldVar vars name r ps = .ok r') :
    ∀ fuel, ps.length + 1 ≤ fuel →
      headerValues vars name fuel r (toStream ps ++ rest) = (.ok r', rest) := by
  induction ps generalizing r with
  | nil =>
    intro fuel hf
    obtain ⟨f, rfl⟩ : ∃ f, fuel = f + 1 := ⟨fuel - 1, by omega⟩
    obtain ⟨q, s, rfl, hq⟩ := hr
    simp only [foldVar, Except.ok.injEq] at h
    rw [headerValues, toStream_nil, List.nil_append, Rd.bind_ok (Rd.next?_cons (by omega) _)]
    simp only
    rw [if_pos hq, h]
    rfl
  | cons p ps ih =>
    intro fuel hf
    obtain ⟨f, rfl⟩ : ∃ f, fuel = f + 1 := ⟨fuel - 1, by simp at hf; omega⟩
    have hp := hps p List.mem_cons_self
    rw [foldVar] at h
    cases h1 : setHeaderValue vars name p r with
    | error e => rw [h1] at h; cases h
    | ok r1 =>
      rw [h1] at h
      rw [headerValues, toStream_cons, List.cons_append, Rd.bind_ok (Rd.next?_cons hp.2.2 _)]
      simp only
      rw [if_neg (by omega), Rd.bind_ok (m := Rd.lift _) (a := r1) (by rw [Rd.run_lift, h1])]
      exact ih (fun q hq => hps q (List.mem_cons_of_mem _ hq)) r1 h f (by simp at hf; omega)

/-- All variables, without the loop. -/
def foldHeader (vars : List (HVar ds)) (v : Version) (r : Rec ds) (h0 : Rec ds) :
    List (HCmd ds) → Except DxfErr (Rec ds)
  | [] => .ok h0
  | c :: cs =>
    if c.g.holds v r then
      match foldVar vars c.name h0 (c.g.cmd.emit r) with
      | .ok h1 => foldHeader vars v r h1 cs
      | .error e => .error e
    else foldHeader vars v r h0 cs

theorem headerLoop_fold (vars : List (HVar ds)) (v : Version) (r : Rec ds) (cmds : List (HCmd ds))
    (hc : ∀ c ∈ cmds, ∀ k ∈ c.g.cmd.codes, k ≠ 0 ∧ k ≠ 9 ∧ k ≠ 999) (q : CodePair) (hq : q.code = 0)
    (s : Stream) (h0 h1 : Rec ds) (h : foldHeader vars v r h0 cmds = .ok h1) :
    ∀ fuel, (headerPairs cmds v r).length + 1 ≤ fuel →
      headerLoop vars fuel h0 (toStream (headerPairs cmds v r) ++ some (.ok q) :: s) =
        (.ok h1, some (.ok q) :: s) := by
  induction cmds generalizing h0 with
  | nil =>
    intro fuel hf
    obtain ⟨f, rfl⟩ : ∃ f, fuel = f + 1 := ⟨fuel - 1, by omega⟩
    simp only [foldHeader, Except.ok.injEq] at h
    simp only [headerPairs, List.flatMap_nil, toStream_nil, List.nil_append]
    rw [headerLoop, Rd.bind_ok (Rd.next?_cons (by omega) _)]
    simp only
    rw [if_pos hq, h]
    rfl
  | cons c cs ih =>
    have ihc := ih fun x hx => hc x (List.mem_cons_of_mem _ hx)
    have hsplit : headerPairs (c :: cs) v r = c.emit v r ++ headerPairs cs v r := rfl
    intro fuel hf
    rw [hsplit] at hf ⊢
    rw [foldHeader] at h
    unfold HCmd.emit at hf ⊢
    by_cases hh : c.g.holds v r = true
    · rw [if_pos hh] at h hf ⊢
      cases hv : foldVar vars c.name h0 (c.g.cmd.emit r) with
      | error e => rw [hv] at h; cases h
      | ok h2 =>
        rw [hv] at h
        simp only [List.cons_append, List.length_cons, List.length_append] at hf
        obtain ⟨f, rfl⟩ : ∃ f, fuel = f + 1 := ⟨fuel - 1, by omega⟩
        rw [headerLoop, List.cons_append, toStream_cons, List.cons_append,
          Rd.bind_ok (Rd.next?_cons (by simp [CodePair.newStr]) _)]
        simp only
        rw [if_neg (by simp [CodePair.newStr]),
          if_pos (show (CodePair.newStr 9 c.name).code = 9 from rfl),
          Rd.bind_ok (m := Rd.lift (CodePair.newStr 9 c.name).assertString) (a := c.name) rfl]
        have hends : EndsVar (toStream (headerPairs cs v r) ++ some (.ok q) :: s) := by
          clear hf h ih ihc hsplit hv hc
          induction cs with
          | nil => exact ⟨q, s, rfl, .inl hq⟩
          | cons d ds ihd =>
            by_cases hd : d.g.holds v r = true
            · refine ⟨.newStr 9 d.name,
                toStream (d.g.cmd.emit r ++ headerPairs ds v r) ++ some (.ok q) :: s, ?_, .inr rfl⟩
              simp only [headerPairs, List.flatMap_cons, HCmd.emit, if_pos hd, List.cons_append,
                toStream_cons]
            · simpa only [headerPairs, List.flatMap_cons, HCmd.emit, if_neg hd, List.nil_append]
                using ihd
        have hvals := headerValues_fold vars c.name (c.g.cmd.emit r)
          (fun p hp => hc c List.mem_cons_self _ (c.g.cmd.mem_codes r p hp)) _ hends h0 h2 hv
        rw [toStream_append, List.append_assoc,
          Rd.bind_ok (m := Rd.withFuel _) (by rw [Rd.run_withFuel]; exact hvals _ (by simp))]
        exact ihc h2 h f (by omega)
    · rw [if_neg hh] at h hf ⊢
      exact ihc h0 h fuel (by simpa using hf)

/-! ### Acceptance -/

/-- Reading back what is written for the value does not panic (only dates can); the vertices of
`LwPolyline`, which the header does not have, are excluded. -/
def WConv.Readable : {t : Ty} → WConv t → t.den → Prop
  | _, .date, v => ∃ d, Date.ofDouble (Date.asDouble v) = .ok d
  | _, _, _ => True

def FWrite.Readable : {t : Ty} → FWrite t → t.den → Prop
  | _, .one _ c, v => c.Readable v
  | _, .many _ c, v => ∀ x ∈ Ty.elems v, c.Readable x
  | _, .axes _, _ => True
  | _, .points _, _ => True
  | _, .lw _, _ => False

theorem RConv.matches_ok {t : Ty} (k : RConv t) (c : WConv t) (code : Int) (v : t.den)
    (hm : k.matches c = true) (hr : c.Readable v) : ∃ x, k.read (c.write code v) = .ok x := by
  by_cases hd : ∃ e : t = .date, e ▸ c = WConv.date
  · obtain ⟨rfl, rfl⟩ := hd
    cases k with
    | date => exact hr
  · refine k.read_ok c.wire _ ?_ (c.write_is code v)
    cases k <;> cases c <;> simp only [RConv.matches, Bool.false_eq_true] at hm <;>
      first | rfl | exact absurd ⟨rfl, rfl⟩ hd

theorem FWrite.undoneBy_accepts (arms : List (Arm ds)) (i : Nat) (w : FWrite (tyAt ds i))
    (hu : w.undoneBy (armOn arms i) = true) (v : (tyAt ds i).den) (hr : w.Readable v) :
    ∀ p ∈ w.emit v, Accepts arms p := by
  have key : ∀ p ∈ w.emit v, ∀ old, ∃ act x, armOn arms i p.code = some act ∧
      act.apply old p = .ok x := by
    generalize armOn arms i = look at hu
    revert w v
    generalize tyAt ds i = t at look
    intro w v hr hu p hp old
    cases w with
    | one code c =>
      simp only [FWrite.emit, List.mem_singleton] at hp
      subst hp
      simp only [FWrite.undoneBy] at hu
      rw [WConv.write_code]
      cases hl : look code with
      | none => simp [hl] at hu
      | some act =>
        rw [hl] at hu
        cases act with
        | set k =>
          obtain ⟨x, hx⟩ := k.matches_ok c code v hu hr
          exact ⟨_, x, rfl, hx⟩
        | push k => simp at hu
        | axis a => simp at hu
        | pushAxis a => simp at hu
        | lwNew => simp at hu
        | lwSet f => simp at hu
    | many code c =>
      simp only [FWrite.emit] at hp
      obtain ⟨y, hy, rfl⟩ := List.mem_map.mp hp
      simp only [FWrite.undoneBy] at hu
      rw [WConv.write_code]
      cases hl : look code with
      | none => simp [hl] at hu
      | some act =>
        rw [hl] at hu
        cases act with
        | set k => simp at hu
        | push k =>
          obtain ⟨x, hx⟩ := k.matches_ok c code y hu (hr y hy)
          exact ⟨_, _, rfl, by rw [FRead.apply, hx]; rfl⟩
    | axes codes =>
      simp only [FWrite.emit] at hp
      obtain ⟨⟨a, c⟩, hx, rfl⟩ := List.mem_map.mp hp
      simp only [FWrite.undoneBy, List.all_eq_true] at hu
      have h1 := hu _ hx
      simp only at h1 ⊢
      rw [show (CodePair.newF64 c (Point.axis v a)).code = c from rfl]
      cases hl : look c with
      | none => simp [hl] at h1
      | some act =>
        rw [hl] at h1
        cases act with
        | set k => simp at h1
        | axis a' => exact ⟨_, _, rfl, rfl⟩
    | lw withId => exact hr.elim
    | points code =>
      simp only [FWrite.emit] at hp
      obtain ⟨q, _, hp⟩ := List.mem_flatMap.mp hp
      obtain ⟨a, hx, rfl⟩ := List.mem_map.mp hp
      simp only [FWrite.undoneBy, List.all_eq_true] at hu
      have h1 := hu _ hx
      rw [show (CodePair.newF64 (code a) (Point.axis q a)).code = code a from rfl]
      cases hl : look (code a) with
      | none => simp [hl] at h1
      | some act =>
        rw [hl] at h1
        cases act with
        | set k => simp at h1
        | pushAxis a' => exact ⟨_, _, rfl, rfl⟩
  intro p hp r
  obtain ⟨act, x, h1, h2⟩ := key p hp (r i)
  exact ⟨_, by rw [armOn_apply h1 r p rfl, h2]; rfl⟩

theorem FWrite.readable_of {t : Ty} (w : FWrite t) (v : t.den)
    (h : ∀ e : t = .date, ∃ d, Date.ofDouble (Date.asDouble (e ▸ v : Ty.date.den)) = .ok d)
    (hl : t ≠ .list .date) (hw : t ≠ .lw) : w.Readable v := by
  cases w with
  | one code c =>
    cases c
    case date => exact h rfl
    all_goals exact trivial
  | many code c =>
    intro x hx
    cases c
    case date => exact absurd rfl hl
    all_goals exact trivial
  | axes => exact trivial
  | points => exact trivial
  | lw => exact hw rfl

/-! ### The pure part -/

theorem foldVar_known {vars : List (HVar ds)} {name : Str} {hv : HVar ds}
    (hf : findVar vars name = some hv) (ps : List CodePair)
    (hps : ∀ p ∈ ps, (findArm hv.arms p.code).isSome = true) (r : Rec ds) :
    foldVar vars name r ps = foldPairs hv.arms r ps := by
  induction ps generalizing r with
  | nil => rfl
  | cons p ps ih =>
    obtain ⟨a, ha⟩ := Option.isSome_iff_exists.mp (hps p List.mem_cons_self)
    rw [foldVar, foldPairs, setHeaderValue, hf, applyPair]
    simp only [ha]
    cases a.act.apply r p with
    | error e => rfl
    | ok r' => exact ih (fun q hq => hps q (List.mem_cons_of_mem _ hq)) r'

theorem foldVar_unknown {vars : List (HVar ds)} {name : Str}
    (hf : findVar vars name = none) (ps : List CodePair) (r : Rec ds) :
    foldVar vars name r ps = .ok r := by
  induction ps generalizing r with
  | nil => rfl
  | cons p ps ih =>
    rw [foldVar, setHeaderValue, hf]
    exact ih r

/-- All arms are ordinary ones on field `j`. -/
def onlyOn (arms : List (Arm ds)) (j : Nat) : Bool :=
  arms.all fun a => match a.act with
    | .on k _ => k == j
    | .custom _ _ => false

/-- The statement writes a field which its variable reads back, with codes that the loops do not
treat specially. -/
def HCmd.ok (vars : List (HVar ds)) (c : HCmd ds) : Bool :=
  (c.g.cmd.codes.all fun k => decide (k ≠ 0) && decide (k ≠ 9) && decide (k ≠ 999)) &&
  match findVar vars c.name with
  | none => true
  | some hv =>
    match c.g.cmd with
    | .field j w => onlyOn hv.arms j && w.undoneBy (armOn hv.arms j)
    | _ => false

theorem findArm_of_armOn {arms : List (Arm ds)} {i : Nat} {code : Int}
    (h : (armOn arms i code).isSome = true) : (findArm arms code).isSome = true := by
  unfold armOn at h
  cases hf : findArm arms code with
  | none => rw [hf] at h; exact h
  | some a => rfl

theorem hits_of_onlyOn {arms : List (Arm ds)} {j i : Nat} (h : onlyOn arms j = true) (hij : j ≠ i)
    (code : Int) : hits arms code i = false := by
  unfold hits
  cases hf : findArm arms code with
  | none => rfl
  | some a =>
    have := List.all_eq_true.mp h a (List.mem_of_find?_eq_some hf)
    cases ha : a.act with
    | custom ts f => rw [ha] at this; cases this
    | on k act =>
      rw [ha] at this
      simp only [beq_iff_eq] at this
      simp only [ha, Act.hits]
      subst this
      simpa using hij

theorem frame_of_onlyOn {arms : List (Arm ds)} {j : Nat} (h : onlyOn arms j = true) :
    CustomFrame arms := by
  intro a ha ts f hact
  have := List.all_eq_true.mp h a ha
  rw [hact] at this
  cases this

theorem HCmd.ok_fieldOK {vars : List (HVar ds)} {c : HCmd ds} {hv : HVar ds}
    (h : c.ok vars = true) (hf : findVar vars c.name = some hv) :
    CustomFrame hv.arms ∧ (∀ i, fieldOK hv.arms [c.g] i = true) ∧
      ∀ k ∈ c.g.cmd.codes, (findArm hv.arms k).isSome = true := by
  unfold HCmd.ok at h
  rw [hf] at h
  simp only [Bool.and_eq_true] at h
  have h := h.2
  cases hc : c.g.cmd with
  | const p => rw [hc] at h; cases h
  | computed => rw [hc] at h; cases h
  | field j w =>
    rw [hc] at h
    simp only [Bool.and_eq_true] at h
    refine ⟨frame_of_onlyOn h.1, fun i => ?_, fun k hk => ?_⟩
    · simp only [fieldOK, List.all_cons, List.all_nil, Bool.and_true, hc, Cmd.onField]
      by_cases hij : j = i
      · subst hij
        simpa using h.2
      · simp only [dif_neg hij, List.all_eq_true, Bool.not_eq_true']
        exact fun c _ => hits_of_onlyOn h.1 hij c
    · exact findArm_of_armOn (w.undoneBy_some _ h.2 k hk)

theorem afterAll_append (i : Nat) (a b : List (GCmd ds)) (v : Version) (r : Rec ds)
    (old : (tyAt ds i).den) :
    afterAll i (a ++ b) v r old = afterAll i b v r (afterAll i a v r old) := by
  induction a generalizing old with
  | nil => rfl
  | cons g gs ih =>
    simp only [List.cons_append, afterAll]
    cases g.cmd.onField i <;> exact ih _

theorem knownCmds_cons (vars : List (HVar ds)) (c : HCmd ds) (cs : List (HCmd ds)) :
    knownCmds vars (c :: cs) =
      if (findVar vars c.name).isSome then c.g :: knownCmds vars cs else knownCmds vars cs := by
  unfold knownCmds
  rw [List.filter_cons]
  split <;> rfl

theorem foldHeader_ok (vars : List (HVar ds)) (v : Version) (r : Rec ds) (cmds : List (HCmd ds))
    (hok : (cmds.all fun c => c.ok vars) = true)
    (hacc : ∀ c ∈ cmds, c.g.holds v r = true → ∀ hv, findVar vars c.name = some hv →
      ∀ p ∈ c.g.cmd.emit r, Accepts hv.arms p) (h0 : Rec ds) :
    ∃ h1, foldHeader vars v r h0 cmds = .ok h1 ∧
      ∀ i, Representable (knownCmds vars cmds) v r i →
        h1 i = afterAll i (knownCmds vars cmds) v r (h0 i) := by
  induction cmds generalizing h0 with
  | nil => exact ⟨h0, rfl, fun i _ => rfl⟩
  | cons c cs ih =>
    simp only [List.all_cons, Bool.and_eq_true] at hok
    have ihc := ih hok.2 fun x hx => hacc x (List.mem_cons_of_mem _ hx)
    rw [foldHeader]
    rw [knownCmds_cons]
    cases hf : findVar vars c.name with
    | none =>
      simp only [foldVar_unknown hf, Option.isSome_none, Bool.false_eq_true, if_false, ite_self]
      exact ihc h0
    | some hv =>
      simp only [Option.isSome_some, if_true]
      obtain ⟨hcf, hfok, harm⟩ := HCmd.ok_fieldOK hok.1 hf
      by_cases hh : c.g.holds v r = true
      · rw [if_pos hh, foldVar_known hf _ fun p hp => harm _ (c.g.cmd.mem_codes r p hp)]
        obtain ⟨h1, hh1⟩ := foldPairs_ok hv.arms _ (hacc c List.mem_cons_self hh hv hf) h0
        obtain ⟨h2, hh2, hval⟩ := ihc h1
        refine ⟨h2, by rw [hh1]; exact hh2, fun i hrep => ?_⟩
        rw [hval i fun g hg => hrep g (List.mem_cons_of_mem _ hg)]
        rw [show c.g :: knownCmds vars cs = [c.g] ++ knownCmds vars cs from rfl, afterAll_append]
        congr 1
        refine fold_afterAll hcf i [c.g] v r (hfok i)
          (fun g hg => hrep g (by rw [List.mem_singleton.mp hg]; exact List.mem_cons_self)) ?_
        simpa [emitAll, GCmd.emit, hh] using hh1
      · rw [if_neg hh]
        obtain ⟨h2, hh2, hval⟩ := ihc h0
        refine ⟨h2, hh2, fun i hrep => ?_⟩
        rw [hval i fun g hg => hrep g (List.mem_cons_of_mem _ hg), afterAll]
        cases c.g.cmd.onField i with
        | none => rfl
        | some w => simp only [if_neg hh]

def FWrite.isOne : {t : Ty} → FWrite t → Bool
  | _, .one _ _ => true
  | _, .many _ _ => false
  | _, .axes _ => false
  | _, .points _ => false
  | _, .lw _ => false

theorem FWrite.after_one {t : Ty} (w : FWrite t) (h : w.isOne = true) (old v : t.den) :
    w.after old v = v := by
  cases w with
  | one c k => rfl
  | many c k => cases h
  | axes cs => cases h
  | points c => cases h
  | lw w => cases h

/-- Every statement for field `i` writes it as a single pair. -/
def oneOK (cmds : List (GCmd ds)) (i : Nat) : Bool :=
  cmds.all fun g => match g.cmd.onField i with
    | some w => w.isOne
    | none => true

theorem afterAll_one (i : Nat) (cmds : List (GCmd ds)) (v : Version) (r : Rec ds)
    (h1 : oneOK cmds i = true) (old : (tyAt ds i).den)
    (h : Written cmds v r i ∨ old = r i) : afterAll i cmds v r old = r i := by
  induction cmds generalizing old with
  | nil =>
    rcases h with ⟨g, hg, _⟩ | h
    · simp at hg
    · exact h
  | cons g gs ih =>
    simp only [oneOK, List.all_cons, Bool.and_eq_true] at h1
    rw [afterAll]
    cases hw : g.cmd.onField i with
    | none =>
      refine ih h1.2 old (h.imp_left fun ⟨g', hg', ha, hb⟩ => ?_)
      rcases List.mem_cons.mp hg' with rfl | hg'
      · rw [onField_writes, hw] at ha; cases ha
      · exact ⟨g', hg', ha, hb⟩
    | some w =>
      by_cases hh : g.holds v r = true
      · simp only [if_pos hh]
        refine ih h1.2 _ (.inr ?_)
        have h2 := h1.1
        rw [hw] at h2
        exact w.after_one h2 old (r i)
      · simp only [if_neg hh]
        refine ih h1.2 old (h.imp_left fun ⟨g', hg', ha, hb⟩ => ?_)
        rcases List.mem_cons.mp hg' with rfl | hg'
        · exact absurd hb hh
        · exact ⟨g', hg', ha, hb⟩

/-! ### The concrete header -/

theorem Header.checks : (Header.cmds.all fun c => c.ok Header.vars) = true := by
  decide +kernel

theorem Header.date_fields : (Header.decls.zipIdx.all fun d =>
    decide (d.1.1 ≠ .list .date) && decide (d.1.1 ≠ .lw) &&
      (decide (d.1.1 ≠ .date) || [122, 123, 124, 125].contains d.2)) = true := by
  decide +kernel

theorem Header.ones : (Header.nondet.all fun i => oneOK Header.known i) = true := by
  decide +kernel

theorem Header.noLists : (Header.decls.all fun d => !d.1.grows) = true := by
  decide +kernel

end Dxf
