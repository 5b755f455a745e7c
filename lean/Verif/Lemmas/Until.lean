import Verif.Model.Bytes
import Verif.Lemmas.Header
import Verif.Lemmas.InsertFile

/-! Reading up to the place where the iterator is told to read UTF-8. -/

namespace Dxf

variable {ds : List Decl}

/-- Up to that place the readers do the same. -/
theorem headerValuesUntil_ok (vars : List (HVar ds)) (quit : Str → Rec ds → Bool) (name : Str)
    (fuel : Nat) : ∀ (r r' : Rec ds) (s t : Stream),
    headerValues vars name fuel r s = (.ok r', t) →
    headerValuesUntil vars quit name fuel r s = (.ok (some r'), t) ∨
      ∃ t', headerValuesUntil vars quit name fuel r s = (.ok none, t') := by
  induction fuel with
  | zero => intro r r' s t h; cases h
  | succ fuel ih =>
    intro r r' s t h
    unfold headerValues at h
    unfold headerValuesUntil
    obtain ⟨a, s1, h1, h⟩ := Rd.bind_inv h
    rw [Rd.bind_ok h1]
    cases a with
    | none => cases h; exact .inl rfl
    | some p =>
      dsimp only at h ⊢
      by_cases hc : p.code = 0 ∨ p.code = 9
      · rw [if_pos hc] at h ⊢
        cases h
        exact .inl rfl
      · rw [if_neg hc] at h ⊢
        obtain ⟨x, s2, h2, h⟩ := Rd.bind_inv h
        rw [Rd.bind_ok h2]
        by_cases hq : quit name x = true
        · rw [if_pos hq]
          exact .inr ⟨_, rfl⟩
        · rw [if_neg hq]
          exact ih _ _ _ _ h

theorem headerLoopUntil_ok (vars : List (HVar ds)) (quit : Str → Rec ds → Bool) (fuel : Nat) :
    ∀ (r r' : Rec ds) (s t : Stream), headerLoop vars fuel r s = (.ok r', t) →
    headerLoopUntil vars quit fuel r s = (.ok (some r'), t) ∨
      ∃ t', headerLoopUntil vars quit fuel r s = (.ok none, t') := by
  induction fuel with
  | zero => intro r r' s t h; cases h
  | succ fuel ih =>
    intro r r' s t h
    unfold headerLoop at h
    unfold headerLoopUntil
    obtain ⟨a, s1, h1, h⟩ := Rd.bind_inv h
    rw [Rd.bind_ok h1]
    cases a with
    | none => cases h; exact .inl rfl
    | some p =>
      dsimp only at h ⊢
      by_cases hc : p.code = 0
      · rw [if_pos hc] at h ⊢
        cases h
        exact .inl rfl
      · rw [if_neg hc] at h ⊢
        by_cases h9 : p.code = 9
        · rw [if_pos h9] at h ⊢
          obtain ⟨name, s2, h2, h⟩ := Rd.bind_inv h
          rw [Rd.bind_ok h2]
          obtain ⟨x, s3, h3, h⟩ := Rd.bind_inv h
          rw [Rd.run_withFuel] at h3
          rcases headerValuesUntil_ok vars quit name _ _ _ _ _ h3 with h4 | ⟨t', h4⟩
          · rw [Rd.bind_ok (m := Rd.withFuel _) (by rw [Rd.run_withFuel]; exact h4)]
            exact ih _ _ _ _ h
          · rw [Rd.bind_ok (m := Rd.withFuel _) (by rw [Rd.run_withFuel]; exact h4)]
            exact .inr ⟨_, rfl⟩
        · rw [if_neg h9] at h
          cases h

/-- The values of a variable that is not tested. -/
theorem headerValuesUntil_quiet (vars : List (HVar ds)) (quit : Str → Rec ds → Bool) (name : Str)
    (hq : ∀ r, quit name r = false) (ps : List CodePair)
    (hps : ∀ p ∈ ps, p.code ≠ 0 ∧ p.code ≠ 9 ∧ p.code ≠ 999) (rest : Stream) (hr : EndsVar rest) :
    ∀ (fuel : Nat) (r : Rec ds),
      (∃ e t, headerValuesUntil vars quit name fuel r (toStream ps ++ rest) = (.error e, t)) ∨
      ∃ r', headerValuesUntil vars quit name fuel r (toStream ps ++ rest) = (.ok (some r'), rest) := by
  induction ps with
  | nil =>
    intro fuel r
    obtain ⟨q, s, rfl, hq0⟩ := hr
    cases fuel with
    | zero => exact .inl ⟨_, _, rfl⟩
    | succ fuel =>
      refine .inr ⟨r, ?_⟩
      unfold headerValuesUntil
      rw [toStream_nil, List.nil_append, Rd.bind_ok (Rd.next?_cons (by omega) _)]
      dsimp only
      rw [if_pos hq0]
      rfl
  | cons p ps ih =>
    intro fuel r
    have hp := hps p List.mem_cons_self
    cases fuel with
    | zero => exact .inl ⟨_, _, rfl⟩
    | succ fuel =>
      unfold headerValuesUntil
      rw [toStream_cons, List.cons_append, Rd.bind_ok (Rd.next?_cons hp.2.2 _)]
      dsimp only
      rw [if_neg (by omega)]
      cases hs : setHeaderValue vars name p r with
      | error e => exact .inl ⟨e, _, Rd.bind_err (m := Rd.lift (.error e)) rfl⟩
      | ok x =>
        rw [Rd.bind_ok (m := Rd.lift (.ok x)) (a := x) rfl, if_neg (by simp [hq])]
        exact ih (fun q h => hps q (List.mem_cons_of_mem _ h)) fuel x

theorem headerPairs_endsVar (v : Version) (r : Rec ds) (cs : List (HCmd ds)) (q : CodePair)
    (hq : q.code = 0) (s : Stream) :
    EndsVar (toStream (headerPairs cs v r) ++ some (.ok q) :: s) := by
  induction cs with
  | nil => exact ⟨q, s, rfl, .inl hq⟩
  | cons d ds ihd =>
    by_cases hd : d.g.holds v r = true
    · refine ⟨.newStr 9 d.name,
        toStream (d.g.cmd.emit r ++ headerPairs ds v r) ++ some (.ok q) :: s, ?_, .inr rfl⟩
      simp only [headerPairs, List.flatMap_cons, HCmd.emit, if_pos hd, List.cons_append,
        toStream_cons]
    · simpa only [headerPairs, List.flatMap_cons, HCmd.emit, if_neg hd, List.nil_append]
        using ihd

/-- Variables that are not tested. -/
theorem headerLoopUntil_quiet (vars : List (HVar ds)) (quit : Str → Rec ds → Bool) (v : Version)
    (r : Rec ds) (cmds : List (HCmd ds)) (hn : ∀ c ∈ cmds, ∀ r, quit c.name r = false)
    (hc : ∀ c ∈ cmds, ∀ k ∈ c.g.cmd.codes, k ≠ 0 ∧ k ≠ 9 ∧ k ≠ 999) (q : CodePair) (hq : q.code = 0)
    (s : Stream) : ∀ (fuel : Nat) (x : Rec ds),
      (headerLoopUntil vars quit fuel x (toStream (headerPairs cmds v r) ++ some (.ok q) :: s)).1 ≠
        .ok none := by
  induction cmds with
  | nil =>
    intro fuel x
    cases fuel with
    | zero => intro h; cases h
    | succ fuel =>
      simp only [headerPairs, List.flatMap_nil, toStream_nil, List.nil_append]
      rw [headerLoopUntil, Rd.bind_ok (Rd.next?_cons (by omega) _)]
      dsimp only
      rw [if_pos hq]
      intro h
      cases h
  | cons c cs ih =>
    have ihc := ih (fun x hx => hn x (List.mem_cons_of_mem _ hx))
      fun x hx => hc x (List.mem_cons_of_mem _ hx)
    have hsplit : headerPairs (c :: cs) v r = c.emit v r ++ headerPairs cs v r := rfl
    intro fuel x
    rw [hsplit]
    unfold HCmd.emit
    by_cases hh : c.g.holds v r = true
    · rw [if_pos hh]
      cases fuel with
      | zero => intro h; cases h
      | succ fuel =>
        rw [headerLoopUntil, List.cons_append, toStream_cons, List.cons_append,
          Rd.bind_ok (Rd.next?_cons (by simp [CodePair.newStr]) _)]
        dsimp only
        rw [if_neg (by simp [CodePair.newStr]),
          if_pos (show (CodePair.newStr 9 c.name).code = 9 from rfl),
          Rd.bind_ok (m := Rd.lift (CodePair.newStr 9 c.name).assertString) (a := c.name) rfl,
          toStream_append, List.append_assoc]
        rcases headerValuesUntil_quiet vars quit c.name (hn c List.mem_cons_self) (c.g.cmd.emit r)
          (fun p hp => hc c List.mem_cons_self _ (c.g.cmd.mem_codes r p hp)) _
          (headerPairs_endsVar v r cs q hq s) _ x with ⟨e, t, he⟩ | ⟨r', he⟩
        · rw [Rd.bind_err (m := Rd.withFuel _) (by rw [Rd.run_withFuel]; exact he)]
          intro h
          cases h
        · rw [Rd.bind_ok (m := Rd.withFuel _) (by rw [Rd.run_withFuel]; exact he)]
          exact ihc fuel r'
    · rw [if_neg hh]
      exact ihc fuel x

namespace Header

theorem body_cons (r : Header) (hr : r.version ≠ .r11) : r.body = .newStr 9 str!"$ACADVER" ::
    .newStr 1 r.version.display :: headerPairs cmds.tail r.version r ∧
    ∀ off h, setHeaderValue vars str!"$ACADVER" ⟨1, .str r.version.display, off⟩ h =
      .ok (Rec.set h 0 r.version) := by
  refine ⟨rfl, fun off h => ?_⟩
  generalize r.version = v at hr ⊢
  cases v
  case r11 => exact absurd rfl hr
  all_goals rfl

theorem quiet_tail : ∀ c ∈ cmds.tail, ∀ h, switches c.name h = false := by
  intro c hc h
  have : cmds.tail.all (fun c => decide (c.name ≠ str!"$ACADVER")) = true := by decide +kernel
  have := List.all_eq_true.mp this c hc
  unfold switches
  simp only [decide_eq_true_eq] at this
  exact decide_eq_false fun h => this h.1

theorem plain_codes : ∀ c ∈ cmds, ∀ k ∈ c.g.cmd.codes, k ≠ 0 ∧ k ≠ 9 ∧ k ≠ 999 := by
  intro c hc k hk
  have := List.all_eq_true.mp checks c hc
  unfold HCmd.ok at this
  rw [Bool.and_eq_true] at this
  have := List.all_eq_true.mp this.1 k hk
  simpa [and_assoc] using this

/-- Nothing in a header written for an old version makes the iterator read UTF-8. -/
theorem readUntil_written {h0 r r' : Header} (hv : r.version ≤ .r2004) (hr : r.version ≠ .r11)
    {q : CodePair} (hq : q.code = 0) {rest : Stream}
    (h : read h0 (toStream r.body ++ some (.ok q) :: rest) = (.ok r', some (.ok q) :: rest)) :
    readUntil h0 (toStream r.body ++ some (.ok q) :: rest) =
      (.ok (some r'), some (.ok q) :: rest) := by
  obtain ⟨e, hset⟩ := body_cons r hr
  unfold read at h
  rw [Rd.run_withFuel] at h
  unfold readUntil
  rw [Rd.run_withFuel]
  rcases headerLoopUntil_ok vars switches _ _ _ _ _ h with h1 | ⟨t, h1⟩
  · exact h1
  · exfalso
    revert h1
    generalize (toStream r.body ++ some (.ok q) :: rest).length + 1 = fuel
    rw [e, toStream_cons, toStream_cons]
    cases fuel with
    | zero => intro h; cases h
    | succ fuel =>
      rw [headerLoopUntil, List.cons_append, Rd.bind_ok (Rd.next?_cons (by decide) _)]
      dsimp only
      rw [if_neg (by decide), if_pos (by decide),
        Rd.bind_ok (m := Rd.lift (CodePair.newStr 9 str!"$ACADVER").assertString)
          (a := str!"$ACADVER") rfl]
      have hin : (Rd.withFuel fun n => headerValuesUntil vars switches str!"$ACADVER" n h0)
          (some (.ok (.newStr 1 r.version.display)) ::
            (toStream (headerPairs cmds.tail r.version r) ++ some (.ok q) :: rest)) =
          (.ok (some (Rec.set h0 0 r.version)),
            toStream (headerPairs cmds.tail r.version r) ++ some (.ok q) :: rest) := by
        rw [Rd.run_withFuel, headerValuesUntil,
          Rd.bind_ok (Rd.next?_cons (show (1 : Int) ≠ 999 by decide) _)]
        dsimp only
        rw [if_neg (by simp [CodePair.newStr]), Rd.bind_ok (m := Rd.lift _) (a := Rec.set h0 0 r.version)
          (by rw [Rd.run_lift, CodePair.newStr, hset])]
        rw [if_neg ?_]
        · obtain ⟨p, s, he, hp⟩ := headerPairs_endsVar r.version r cmds.tail q hq rest
          rw [he, List.length_cons, headerValuesUntil, Rd.bind_ok (Rd.next?_cons (by omega) _)]
          dsimp only
          rw [if_pos hp]
          rfl
        · unfold switches
          simp only [decide_eq_true_eq]
          intro h
          have h2 : Header.version (Rec.set h0 0 r.version) = r.version := Rec.set_self ..
          rw [h2] at h
          exact absurd h.2 (by revert hv; cases r.version <;> decide)
      rw [List.cons_append, Rd.bind_ok hin]
      intro h
      exact headerLoopUntil_quiet vars switches r.version r cmds.tail quiet_tail
        (fun c hc => plain_codes c (List.mem_of_mem_tail hc)) q hq rest fuel _
        (congrArg Prod.fst h)

/-- The version of a header written for a new version makes the iterator read UTF-8. -/
theorem readUntil_new {h0 : Header} {v : Version} (hv : .r2007 ≤ v) (o1 o2 : Nat) (rest : Stream) :
    readUntil h0 (some (.ok ⟨9, .str str!"$ACADVER", o1⟩) ::
      some (.ok ⟨1, .str v.display, o2⟩) :: rest) = (.ok none, rest) := by
  have hset : ∀ h : Header, setHeaderValue vars str!"$ACADVER" ⟨1, .str v.display, o2⟩ h =
      .ok (Rec.set h 0 v) := by
    intro h
    revert hv
    cases v <;> first | (intro hv; exact absurd hv (by decide)) | (intro _; rfl)
  unfold readUntil
  rw [Rd.run_withFuel, headerLoopUntil, Rd.bind_ok (Rd.next?_cons (show (9 : Int) ≠ 999 by decide) _)]
  dsimp only
  rw [if_neg (by decide), if_pos (by decide),
    Rd.bind_ok (m := Rd.lift (CodePair.assertString ⟨9, .str str!"$ACADVER", o1⟩))
      (a := str!"$ACADVER") rfl]
  have hin : (Rd.withFuel fun n => headerValuesUntil vars switches str!"$ACADVER" n h0)
      (some (.ok ⟨1, .str v.display, o2⟩) :: rest) = (.ok none, rest) := by
    rw [Rd.run_withFuel, headerValuesUntil,
      Rd.bind_ok (Rd.next?_cons (show (1 : Int) ≠ 999 by decide) _)]
    dsimp only
    rw [if_neg (by decide), Rd.bind_ok (m := Rd.lift _) (a := Rec.set h0 0 v)
      (by rw [Rd.run_lift, hset])]
    rw [if_pos ?_]
    · rfl
    · unfold switches
      rw [decide_eq_true_eq]
      have h2 : Header.version (Rec.set h0 0 v) = v := Rec.set_self ..
      rw [h2]
      exact ⟨rfl, hv⟩
  rw [Rd.bind_ok hin]
  rfl

end Header

namespace Drawing

variable {Img : Type}

theorem readSectionUntil_other {codec : ImageCodec Img} {h0 : Header} {name : Str}
    (hn : name ≠ str!"HEADER") {d d' : Drawing Img} {s t : Stream}
    (h : readSection codec h0 name d s = (.ok d', t)) :
    readSectionUntil codec h0 name d s = (.ok (some d'), t) := by
  unfold readSectionUntil
  rw [if_neg hn]
  exact Rd.bind_ok h

theorem readSectionsUntil_open (codec : ImageCodec Img) (h0 : Header) (k : Nat) (d : Drawing Img)
    (o1 o2 : Nat) (name : Str) (y : Stream) :
    readSectionsUntil codec h0 (k + 1) d
      (some (.ok ⟨0, .str str!"SECTION", o1⟩) :: some (.ok ⟨2, .str name, o2⟩) :: y) =
    (do
      match ← readSectionUntil codec h0 name d with
      | none => return true
      | some d => do
        expect str!"ENDSEC"
        readSectionsUntil codec h0 k d : Rd Bool) y := by
  conv => lhs; unfold readSectionsUntil
  rw [Rd.bind_ok (Rd.next?_cons (show (0 : Int) ≠ 999 by decide) _)]
  dsimp only
  rw [if_pos rfl, Rd.bind_ok (m := Rd.lift (CodePair.assertString ⟨0, .str str!"SECTION", o1⟩))
    (a := str!"SECTION") rfl, if_neg (by decide), if_pos rfl,
    Rd.bind_ok (Rd.next_cons (show (2 : Int) ≠ 999 by decide) _)]
  rfl

end Drawing

end Dxf
