import Verif.Lemmas.Settings

/-! Settings are described in files as the DXF reference says (C82). -/

namespace Dxf

set_option maxRecDepth 20000 in
/-- C82: the header is written as variables, and each of the settings is there once, as the DXF reference
says. -/
theorem C82_written (h : Header) : ∃ vs : List (Str × List CodePair), Header.body h = varPairs vs ∧
    (∀ v ∈ vs, ∀ p ∈ v.2, p.code ≠ 9) ∧
    ∀ x ∈ (Settings.of h).vars, (vs.filter fun v => decide (v.1 = x.1)) = [x] := by
  refine ⟨_, headerPairs_vars Header.cmds h.version h, ?_, ?_⟩
  · intro v hv p hp
    obtain ⟨c, hc, rfl⟩ := List.mem_map.mp hv
    have hall : (Header.cmds.all fun c => c.g.cmd.codes.all fun k => decide (k ≠ 9)) = true := by
      decide +kernel
    exact of_decide_eq_true (List.all_eq_true.mp (List.all_eq_true.mp hall c (List.mem_filter.mp hc).1) _
      (c.g.cmd.mem_codes h p hp))
  · intro x hx
    have hb : ∀ b : Bool, (bif b then (1 : I16) else 0) = if b then 1 else 0 := fun b => by cases b <;> rfl
    have named : ∀ {n : Str} {c : HCmd Header.decls},
        (Header.cmds.filter fun c => decide (c.name = n)) = [c] → c.g.holds h.version h = true →
        ((Header.cmds.filter fun c => c.g.holds h.version h).map (HCmd.var h)).filter
          (fun x => decide (x.1 = n)) = [c.var h] := fun h1 h2 => vars_named h1 h2
    simp only [Settings.vars, List.mem_cons, List.not_mem_nil, or_false] at hx
    obtain rfl | rfl | rfl | rfl | rfl | rfl | rfl | rfl | rfl | rfl := hx
    · exact named (n := str!"$INSBASE") (c := ⟨str!"$INSBASE",
        { cmd := .field 5 (.axes [(.x, 10), (.y, 20), (.z, 30)]) }⟩) rfl rfl
    · exact named (n := str!"$EXTMIN") (c := ⟨str!"$EXTMIN",
        { cmd := .field 6 (.axes [(.x, 10), (.y, 20), (.z, 30)]) }⟩) rfl rfl
    · exact named (n := str!"$EXTMAX") (c := ⟨str!"$EXTMAX",
        { cmd := .field 7 (.axes [(.x, 10), (.y, 20), (.z, 30)]) }⟩) rfl rfl
    · exact named (n := str!"$LTSCALE") (c := ⟨str!"$LTSCALE",
        { cmd := .field 16 (.one 40 .f64) }⟩) rfl rfl
    · exact named (n := str!"$TEXTSIZE") (c := ⟨str!"$TEXTSIZE",
        { cmd := .field 19 (.one 40 .f64) }⟩) rfl rfl
    · exact named (n := str!"$TEXTSTYLE") (c := ⟨str!"$TEXTSTYLE",
        { cmd := .field 21 (.one 7 .str) }⟩) rfl rfl
    · exact named (n := str!"$CLAYER") (c := ⟨str!"$CLAYER",
        { cmd := .field 22 (.one 8 .str) }⟩) rfl rfl
    · exact named (n := str!"$CELTYPE") (c := ⟨str!"$CELTYPE",
        { cmd := .field 23 (.one 6 .str) }⟩) rfl rfl
    · refine (named (n := str!"$ORTHOMODE") (c := ⟨str!"$ORTHOMODE",
        { cmd := .field 10 (.one 70 .asI16) }⟩) rfl rfl).trans ?_
      exact congrArg (fun b => [(str!"$ORTHOMODE", [CodePair.newI16 70 b])]) (hb (h 10))
    · refine (named (n := str!"$FILLMODE") (c := ⟨str!"$FILLMODE",
        { cmd := .field 12 (.one 70 .asI16) }⟩) rfl rfl).trans ?_
      exact congrArg (fun b => [(str!"$FILLMODE", [CodePair.newI16 70 b])]) (hb (h 12))

set_option maxRecDepth 20000 in
/-- C82: a header that is read has the settings its variables say by the DXF reference, in whatever order
they stand and whatever other variables there are. -/
theorem C82_read {x : Settings} {vs : List (Str × List CodePair)}
    (hc : ∀ v ∈ vs, ∀ p ∈ v.2, p.code ≠ 0 ∧ p.code ≠ 9 ∧ p.code ≠ 999)
    (hvs : ∀ y ∈ x.vars, ∃ ps, (vs.filter fun v => decide (v.1 = y.1)) = [(y.1, ps)] ∧
      ∀ p ∈ y.2, (ps.filter fun q => decide (q.code = p.code)).map CodePair.value = [p.value])
    {q : CodePair} (hq : q.code = 0) {c : List CodePair} {h0 h : Header} {t : Stream}
    (hx : Header.read h0 (toStream (varPairs vs ++ q :: c)) = (.ok h, t)) : Settings.of h = x := by
  rw [toStream_append, toStream_cons] at hx
  have hr := header_vars (vars := Header.vars) hc hq hx
  obtain ⟨base, emin, emax, lts, th, ts, la, lt, ortho, fill⟩ := x
  have point : ∀ (n : Str) (i : Nat) (P : Point), (n, P.coded 10) ∈
      Settings.vars ⟨base, emin, emax, lts, th, ts, la, lt, ortho, fill⟩ → onlyVar n i = true →
      (Spot.fits (varArms Header.vars n) 10 (.axis i .x) && Spot.fits (varArms Header.vars n) (10 + 10) (.axis i .y) &&
        Spot.fits (varArms Header.vars n) (10 + 20) (.axis i .z)) = true →
      Ty.pointOf (tyAt Header.decls i) (h.finish i) = some P := by
    intro n i P hm ho hf
    obtain ⟨ps, h1, h2⟩ := hvs _ hm
    exact vars_own (get := fun r : Rec Header.decls => Ty.pointOf (tyAt Header.decls i) (r.finish i))
      (fun m hm r r' p h => by
        have := var_other ho m hm r r' p h
        simp only [Rec.finish, this]) (fun r r' h => point_read hf h2 h) h1 hr
  have num : ∀ (n : Str) (i : Nat) (z : F64), (n, [.newF64 40 z]) ∈
      Settings.vars ⟨base, emin, emax, lts, th, ts, la, lt, ortho, fill⟩ → onlyVar n i = true →
      Spot.fits (varArms Header.vars n) 40 (.num i) = true →
      Ty.numOf (tyAt Header.decls i) (h.finish i) = some z := by
    intro n i z hm ho hf
    obtain ⟨ps, h1, h2⟩ := hvs _ hm
    exact vars_own (get := fun r : Rec Header.decls => Ty.numOf (tyAt Header.decls i) (r.finish i))
      (fun m hm r r' p h => by
        have := var_other ho m hm r r' p h
        simp only [Rec.finish, this])
      (fun r r' h => num_read hf (h2 (.newF64 40 z) List.mem_cons_self) h) h1 hr
  have str : ∀ (n : Str) (k : Int) (i : Nat) (z : Str), (n, [.newStr k z]) ∈
      Settings.vars ⟨base, emin, emax, lts, th, ts, la, lt, ortho, fill⟩ → onlyVar n i = true →
      strFits (varArms Header.vars n) k i = true →
      Ty.strOf (tyAt Header.decls i) (h.finish i) = some z := by
    intro n k i z hm ho hf
    obtain ⟨ps, h1, h2⟩ := hvs _ hm
    exact vars_own (get := fun r : Rec Header.decls => Ty.strOf (tyAt Header.decls i) (r.finish i))
      (fun m hm r r' p h => by
        have := var_other ho m hm r r' p h
        simp only [Rec.finish, this])
      (fun r r' h => str_read hf (h2 (.newStr k z) List.mem_cons_self) h) h1 hr
  have h5 : h 5 = base := Option.some.inj (point str!"$INSBASE" 5 base (by simp [Settings.vars])
    (by decide +kernel) (by decide +kernel))
  have h6 : h 6 = emin := Option.some.inj (point str!"$EXTMIN" 6 emin (by simp [Settings.vars])
    (by decide +kernel) (by decide +kernel))
  have h7 : h 7 = emax := Option.some.inj (point str!"$EXTMAX" 7 emax (by simp [Settings.vars])
    (by decide +kernel) (by decide +kernel))
  have h16 : h 16 = lts := Option.some.inj (num str!"$LTSCALE" 16 lts (by simp [Settings.vars])
    (by decide +kernel) (by decide +kernel))
  have h19 : h 19 = th := Option.some.inj (num str!"$TEXTSIZE" 19 th (by simp [Settings.vars])
    (by decide +kernel) (by decide +kernel))
  have h21 : h 21 = ts := Option.some.inj (str str!"$TEXTSTYLE" 7 21 ts (by simp [Settings.vars])
    (by decide +kernel) (by decide +kernel))
  have h22 : h 22 = la := Option.some.inj (str str!"$CLAYER" 8 22 la (by simp [Settings.vars])
    (by decide +kernel) (by decide +kernel))
  have h23 : h 23 = lt := Option.some.inj (str str!"$CELTYPE" 6 23 lt (by simp [Settings.vars])
    (by decide +kernel) (by decide +kernel))
  have h10 : h 10 = ortho := by
    obtain ⟨ps, h1, h2⟩ := hvs (str!"$ORTHOMODE", [.newI16 70 (if ortho then 1 else 0)])
      (by simp [Settings.vars])
    have h1 : (vs.filter fun v => decide (v.1 = str!"$ORTHOMODE")) = [(str!"$ORTHOMODE", ps)] := h1
    refine vars_own (get := fun r : Rec Header.decls => r 10) (var_other (by decide +kernel))
      (fun r r' h => ?_) h1 hr
    refine fold_lens (c := 70) (get := fun r : Rec Header.decls => r 10)
      (fun r r' p hp h => arm_other (cs := [70]) (by decide +kernel) (by simpa using hp) h)
      (fun r r' p hp hz h => ?_) (h2 _ List.mem_cons_self) h
    have h' : Act.apply r p (.on 10 (.set .asBool)) = .ok r' := by
      unfold applyPair at h
      rw [hp] at h
      exact h
    obtain ⟨y, hy, rfl⟩ := on_apply h'
    exact (Rec.set_self (i := 10) r y).trans (asBool_own hz hy)
  have h12 : h 12 = fill := by
    obtain ⟨ps, h1, h2⟩ := hvs (str!"$FILLMODE", [.newI16 70 (if fill then 1 else 0)])
      (by simp [Settings.vars])
    have h1 : (vs.filter fun v => decide (v.1 = str!"$FILLMODE")) = [(str!"$FILLMODE", ps)] := h1
    refine vars_own (get := fun r : Rec Header.decls => r 12) (var_other (by decide +kernel))
      (fun r r' h => ?_) h1 hr
    refine fold_lens (c := 70) (get := fun r : Rec Header.decls => r 12)
      (fun r r' p hp h => arm_other (cs := [70]) (by decide +kernel) (by simpa using hp) h)
      (fun r r' p hp hz h => ?_) (h2 _ List.mem_cons_self) h
    have h' : Act.apply r p (.on 12 (.set .asBool)) = .ok r' := by
      unfold applyPair at h
      rw [hp] at h
      exact h
    obtain ⟨y, hy, rfl⟩ := on_apply h'
    exact (Rec.set_self (i := 12) r y).trans (asBool_own hz hy)
  change Settings.mk (h 5) (h 6) (h 7) (h 16) (h 19) (h 21) (h 22) (h 23) (h 10) (h 12) = _
  rw [h5, h6, h7, h16, h19, h21, h22, h23, h10, h12]

/-- The variables of a header in a file, in an order of their own and with others between them. -/
def settingsSample (a b c : Point) (s t : F64) (x y z : Str) : List (Str × List CodePair) :=
  [(str!"$FILLMODE", [.newI16 70 1]), (str!"$CLAYER", [.newStr 8 y]), (str!"$NEW", [.newI16 70 3]),
   (str!"$INSBASE", [.newF64 30 a.z, .newF64 10 a.x, .newF64 20 a.y]), (str!"$EXTMIN", b.coded 10),
   (str!"$EXTMAX", c.coded 10), (str!"$LTSCALE", [.newF64 40 s]), (str!"$CELTYPE", [.newStr 6 z]),
   (str!"$TEXTSTYLE", [.newStr 7 x]), (str!"$ORTHOMODE", [.newI16 70 0]), (str!"$TEXTSIZE", [.newF64 40 t])]

set_option maxRecDepth 20000 in
example (a b c : Point) (s t : F64) (x y z : Str) : ∃ h u,
    Header.read (Rec.dflt Header.decls) (toStream (varPairs (settingsSample a b c s t x y z) ++
      .newStr 0 str!"ENDSEC" :: [])) = (.ok h, u) ∧
    Settings.of h = ⟨a, b, c, s, t, x, y, z, false, true⟩ := by
  refine ⟨_, _, rfl, ?_⟩
  refine C82_read (x := ⟨a, b, c, s, t, x, y, z, false, true⟩) (vs := settingsSample a b c s t x y z)
    (h0 := Rec.dflt Header.decls) (q := .newStr 0 str!"ENDSEC") (c := []) ?_ ?_ rfl rfl
  · simp [settingsSample, Point.coded, CodePair.newI16, CodePair.newStr, CodePair.newF64]
  · repeat refine List.forall_mem_cons.mpr ⟨⟨_, rfl, by
      repeat refine List.forall_mem_cons.mpr ⟨rfl, ?_⟩
      exact List.forall_mem_nil _⟩, ?_⟩
    exact List.forall_mem_nil _

end Dxf
