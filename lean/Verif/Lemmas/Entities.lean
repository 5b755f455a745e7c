import Verif.Lemmas.EntityChecks
import Verif.Lemmas.Header

/-! Reading what was written for an entity. -/

namespace Dxf

/-! ### Modes -/

section
variable {ds : List Decl} {M : Type} [DecidableEq M]

/-- A statement none of whose codes is special leaves the mode. -/
theorem modeAfter_neutral (next : M → CodePair → M) (vals : Int → Bool) (special : List Int)
    (hs : ∀ m (p : CodePair), p.code ∉ special → next m p = m)
    (hv : ∀ c, vals c = true → c ∈ special) (m : M) (c : Cmd ds)
    (hc : (c.codes.all fun x => !special.contains x) = true) :
    modeAfter next vals m c = some m := by
  simp only [List.all_eq_true, Bool.not_eq_true', List.contains_eq_mem,
    decide_eq_false_iff_not] at hc
  have hvals : ∀ x ∈ c.codes, vals x = false := fun x hx => by
    cases h : vals x with
    | false => rfl
    | true => exact absurd (hv x h) (hc x hx)
  cases c with
  | const p => exact congrArg some (hs m p (hc _ (by simp [Cmd.codes])))
  | computed code w f =>
    simp only [modeAfter]
    rw [hvals code (by simp [Cmd.codes])]
    exact congrArg some (hs m _ (hc _ (by simp [Cmd.codes, probe])))
  | field i w =>
    rw [modeAfter]
    simp only [Cmd.codes] at hc hvals
    revert w
    generalize tyAt ds i = t
    intro w hc hvals
    have hall : (w.codes.all fun c => !vals c && decide (next m (probe c) = m)) = true := by
      rw [List.all_eq_true]
      intro x hx
      rw [hvals x hx, hs m (probe x) (hc x hx)]
      simp
    cases w with
    | one code c =>
      simp only [FWrite.modeAfter]
      rw [hvals code (by simp [FWrite.codes])]
      exact congrArg some (hs m _ (hc _ (by simp [FWrite.codes, probe])))
    | _ =>
      simp only [FWrite.modeAfter]
      rw [if_pos hall]

end

namespace EName

/-- The codes that change the mode. -/
def special : EName → List Int
  | .attribute => [100, 280, 70]
  | .attributeDefinition => [100, 280, 70]
  | .mText => [75, 50]
  | .dimension => [100]
  | _ => []

theorem next_special (k : EName) (m : Mode) (p : CodePair) (h : p.code ∉ k.special) :
    k.kind.next m p = m := by
  cases k
  case «attribute» | attributeDefinition =>
    simp only [special, List.mem_cons, List.not_mem_nil, or_false, not_or] at h
    simp [kind, Ent.attributeNext, h]
  case mText =>
    simp only [special, List.mem_cons, List.not_mem_nil, or_false, not_or] at h
    simp [kind, Ent.mTextNext, h]
  case dimension =>
    simp only [special, List.mem_cons, List.not_mem_nil, or_false] at h
    simp [kind, Ent.dimensionNext, h]
  all_goals rfl

theorem vals_special (k : EName) (c : Int) (h : k.vals c = true) : c ∈ k.special := by
  cases k
  case «attribute» | attributeDefinition | dimension =>
    simp only [vals, beq_iff_eq] at h
    simp [special, h]
  all_goals cases h

theorem next_code (k : EName) (m : Mode) (p q : CodePair) (h : p.code = q.code)
    (hv : k.vals p.code = false) : k.kind.next m p = k.kind.next m q := by
  cases k
  case «attribute» | attributeDefinition =>
    simp only [vals, beq_eq_false_iff_ne, ne_eq] at hv
    have hq : q.code ≠ 100 := h ▸ hv
    simp only [kind, Ent.attributeNext, if_neg hv, if_neg hq, h]
  case mText => simp [kind, Ent.mTextNext, h]
  case dimension =>
    simp only [vals, beq_eq_false_iff_ne, ne_eq] at hv
    have hq : q.code ≠ 100 := h ▸ hv
    simp [kind, Ent.dimensionNext, hv, hq]
  all_goals rfl

/-- A statement that is always emitted, or that does not change the mode. -/
def Steady (k : EName) (g : GCmd k.decls) : Prop :=
  (∀ r, g.cond r = true) ∨ (g.cmd.codes.all fun x => !k.special.contains x) = true

theorem Steady.cond {k : EName} {g : GCmd k.decls} (h : k.Steady g) :
    (∀ r, g.cond r = true) ∨ ∀ m, modeAfter k.kind.next k.vals m g.cmd = some m :=
  h.imp id fun h m =>
    modeAfter_neutral _ _ k.special (fun m p hp => k.next_special m p hp) k.vals_special m _ h

theorem steady (k : EName) (n : Nat) (wh : Bool) : ∀ g ∈ k.statements n wh, k.Steady g := by
  intro g hg
  by_cases hs : k.special = []
  · exact .inr (by simp [hs])
  · cases k <;> first | exact absurd rfl hs | skip
    case «attribute» | attributeDefinition | mText =>
      revert g
      simp only [statements, commonHead, commonCmds, kind, Ent.attributeCmds,
        Ent.attributeDefinitionCmds, Ent.mTextCmds, List.cons_append, List.nil_append]
      repeat' first
        | exact fun _ h => absurd h List.not_mem_nil
        | (refine List.forall_mem_cons.mpr ⟨?_, ?_⟩)
        | exact .inl fun _ => rfl
        | exact .inr rfl
    case dimension =>
      revert g
      simp only [statements, commonHead, commonCmds, kind, Ent.dimensionCmds,
        Ent.dimensionBaseCmds, List.cons_append, List.nil_append]
      rcases n with _ | _ | _ | _ | _ | _ | n <;> simp only [List.nil_append] <;>
      repeat' first
        | exact fun _ h => absurd h List.not_mem_nil
        | (refine List.forall_mem_cons.mpr ⟨?_, ?_⟩)
        | exact .inl fun _ => rfl
        | exact .inr rfl

/-! ### Arms -/

/-- A hand-written arm only changes its targets. -/
def Framed {ds : List Decl} (a : Arm ds) : Prop :=
  match a.act with
  | .on _ _ => True
  | .custom ts f => ∀ r p r', f r p = .ok r' → ∀ j, j ∉ ts → r' j = r j

theorem frame_of {ds : List Decl} {arms : List (Arm ds)} (h : ∀ a ∈ arms, Framed a) :
    CustomFrame arms := by
  intro a ha ts f hact
  have := h a ha
  unfold Framed at this
  rw [hact] at this
  exact this

theorem frame_readDimensionType (c : Int) : Framed ⟨c, Ent.readDimensionType⟩ := by
  intro r p r' h j hj
  simp only at h
  cases h1 : p.assertI16 with
  | error e => rw [h1] at h; cases h
  | ok v =>
    rw [h1] at h
    have h := Except.ok.inj h
    rw [← h]
    simp only [List.mem_cons, List.not_mem_nil, or_false, not_or] at hj
    exact (Rec.set_ne (ds := EName.dimension.decls) _ _ hj.1).trans
      ((Rec.set_ne (ds := EName.dimension.decls) _ _ hj.2.2.2).trans
        ((Rec.set_ne (ds := EName.dimension.decls) _ _ hj.2.2.1).trans
          (Rec.set_ne (ds := EName.dimension.decls) r _ hj.2.1)))

theorem frame (k : EName) (m : Mode) : CustomFrame (k.kind.arms m) := by
  obtain ⟨a, b, n⟩ := m
  cases k
  case «attribute» | attributeDefinition =>
    simp only [kind]
    cases a <;> cases b <;> rcases n with _ | _ | _ | n
    all_goals first
      | exact customFrame_of_on _ (by decide +kernel)
      | skip
    all_goals
      apply frame_of
      simp only [Ent.attributeArms, Ent.attributeDefinitionArms, commonArms, List.cons_append,
        List.nil_append, cond_true, cond_false]
      repeat' first
        | exact fun _ h => absurd h List.not_mem_nil
        | (refine List.forall_mem_cons.mpr ⟨?_, ?_⟩)
        | exact trivial
        | exact fun _ _ _ h => absurd h (by simp)
  case mText =>
    simp only [kind]
    cases a <;> cases b <;> exact customFrame_of_on _ (by decide +kernel)
  case dimension =>
    simp only [kind]
    rcases n with _ | _ | _ | _ | _ | _ | n
    case zero =>
      apply frame_of
      simp only [Ent.dimensionArms, Ent.dimensionBaseArms, commonArms, List.cons_append,
        List.nil_append]
      repeat' first
        | exact fun _ h => absurd h List.not_mem_nil
        | (refine List.forall_mem_cons.mpr ⟨?_, ?_⟩)
        | exact trivial
        | exact frame_readDimensionType _
    all_goals first
      | exact customFrame_of_on _ (by decide +kernel)
      | exact customFrame_of_on (commonArms Ent.dimensionSpec) (by decide +kernel)
  all_goals
    simp only [kind]
    exact customFrame_of_on _ (by decide +kernel)

theorem ofType_typeString (k : EName) : ofType k.kind.typeString = some k := by
  cases k <;> decide +kernel

theorem typeString_ne (k : EName) :
    k.kind.typeString ≠ str!"ENDSEC" ∧ k.kind.typeString ≠ str!"ENDBLK" := by
  cases k <;> decide +kernel

/-! ### Reading -/

theorem check_spec {k : EName} {n : Nat} {v : Version} {wh : Bool} {sk : List Nat}
    (h : k.check n v wh sk = true) : ∃ as m,
      annotate k.kind.next k.vals Mode.start (gated v (k.statements n wh)) = some (as, m) ∧
      (∀ x ∈ as, x.2.cmd.safeL (k.kind.arms x.1) = true ∨ k.exempt x.1 x.2.cmd = true) ∧
      (as.all fun x => x.2.cmd.clean (k.kind.arms x.1) sk) = true ∧
      (∀ x ∈ as, x.2.cmd.codes.all plainCode = true) ∧
      k.kind.sub m = some (k.subOf n) ∧
      ∀ i, i < k.decls.length → i ∉ sk → growOKa (gated v (k.statements n wh)) i = true := by
  unfold check at h
  split at h
  · cases h
  · rename_i as m ha
    simp only [Bool.and_eq_true, List.all_eq_true, decide_eq_true_eq, Bool.or_eq_true,
      List.mem_range, List.contains_eq_mem] at h
    refine ⟨as, m, ha, fun x hx => (h.1.1 x hx).1.1, ?_, fun x hx => ?_, h.1.2, fun i hi hs => ?_⟩
    · rw [List.all_eq_true]
      exact fun x hx => (h.1.1 x hx).1.2
    · rw [List.all_eq_true]
      exact (h.1.1 x hx).2
    · exact (h.2 i hi).resolve_left hs

theorem exempt_ok (k : EName) (m : Mode) (c : Cmd k.decls) (h : k.exempt m c = true)
    (r r0 : Rec k.decls) : ∃ r1, foldPairs (k.kind.arms m) r0 (c.emit r) = .ok r1 := by
  cases k
  case dimension =>
    cases c with
    | const | field => simp [exempt] at h
    | computed code c f =>
      simp only [exempt, Bool.and_eq_true, beq_iff_eq, decide_eq_true_eq] at h
      obtain ⟨⟨hm, rfl⟩, hw⟩ := h
      have his := c.write_is 70 (f r)
      have hcode := c.write_code 70 (f r)
      simp only [Cmd.emit, kind]
      rw [hw] at his
      revert his hcode
      generalize c.write 70 (f r) = p
      intro his hcode
      obtain ⟨code, val, off⟩ := p
      cases val <;> simp only [Wire.Is] at his
      simp only at hcode
      subst hcode
      rw [hm]
      exact ⟨_, rfl⟩
  all_goals simp [exempt] at h

/-- `b` is the result of reading what was written for `a`, followed by the extended data `xs`. -/
def Reads (k : EName) (n : Nat) (v : Version) (wh : Bool) (a : Entry k.decls) (xs : List XData)
    (b : Entry k.decls) : Prop :=
  ∃ m r, foldStaged k.kind.arms k.kind.next (Mode.start, Rec.dflt k.decls)
      (emitAll (k.statements n wh) v a.fields) = .ok (m, r) ∧
    k.kind.sub m = some (k.subOf n) ∧
    b.fields = r.finish ∧
    b.ext = (if .r14 ≤ v then ExtGroup.kept a.ext else []) ∧
    b.xdata = (if .r2000 ≤ v then xs else [])

/-- What is written for an entity with the statements `head`, extension groups, the statements
`tail` and the extended data `xs`. -/
def written (k : EName) (v : Version) (head tail : List (GCmd k.decls)) (a : Entry k.decls)
    (xs : List XData) : List CodePair :=
  .newStr 0 k.kind.typeString :: (emitAll head v a.fields ++
    ((if .r14 ≤ v then a.ext.flatMap ExtGroup.pairs else []) ++
      (emitAll tail v a.fields ++ xs.flatMap fun x => x.pairs v)))

/-- Reading it. -/
theorem read_written (k : EName) (v : Version) (head tail : List (GCmd k.decls))
    (hst : ∀ g ∈ head ++ tail, k.Steady g) {as : List (Mode × GCmd k.decls)} {m : Mode}
    (ha : annotate k.kind.next k.vals Mode.start (gated v (head ++ tail)) = some (as, m))
    (hsafe : ∀ x ∈ as, x.2.cmd.safeL (k.kind.arms x.1) = true ∨ k.exempt x.1 x.2.cmd = true)
    (hplain : ∀ x ∈ as, x.2.cmd.codes.all plainCode = true)
    (a : Entry k.decls) (hext : ExtGroup.AllPlain a.ext)
    (xs : List XData) (rest : Stream) (hr : StartsZero rest) :
    ∃ r, foldStaged k.kind.arms k.kind.next (Mode.start, Rec.dflt k.decls)
        (emitAll (head ++ tail) v a.fields) = .ok (m, r) ∧
      ∀ fuel, readEntity (fuel + 1) (toStream (k.written v head tail a xs) ++ rest) =
        match k.kind.sub m with
        | some n => (.ok (some ⟨k, n, ⟨r.finish, if .r14 ≤ v then ExtGroup.kept a.ext else [],
            if .r2000 ≤ v then xs else []⟩⟩), rest)
        | none => readEntity fuel rest := by
  obtain ⟨r, hfold, _⟩ := staged_fold k.kind.arms k.kind.next k.vals k.next_code v a.fields
    (gated v (head ++ tail)) (gated_gate v _)
    (fun g hg => (hst g (gated_mem hg)).cond) Mode.start m as ha
    (fun x hx r0 => (hsafe x hx).elim (fun h => Cmd.safeL_ok _ _ h _ _)
      (fun h => k.exempt_ok _ _ h _ _)) (Rec.dflt k.decls)
  rw [emitAll_gated] at hfold
  refine ⟨r, hfold, fun fuel => ?_⟩
  have hpl : ∀ p ∈ emitAll (head ++ tail) v a.fields, plainCode p.code = true := by
    intro p hp
    rw [← emitAll_gated] at hp
    obtain ⟨g, hg, _, hp⟩ := mem_emitAll hp
    rw [← annotate_mem ha] at hg
    obtain ⟨x, hx, rfl⟩ := List.mem_map.mp hg
    exact List.all_eq_true.mp (hplain x hx) _ (x.2.cmd.mem_codes _ p hp)
  rw [emitAll_append] at hfold hpl
  rw [foldStaged_append] at hfold
  cases h1 : foldStaged k.kind.arms k.kind.next (Mode.start, Rec.dflt k.decls)
      (emitAll head v a.fields) with
  | error e => rw [h1] at hfold; cases hfold
  | ok st =>
    obtain ⟨m1, r1⟩ := st
    rw [h1] at hfold
    simp only at hfold
    have h102 : ∀ p : CodePair, p.code = 102 → k.kind.next m1 p = m1 := fun p hp =>
      k.next_special m1 p (by rw [hp]; cases k <;> decide)
    have h1001 : ∀ p : CodePair, p.code = 1001 → k.kind.next m p = m := fun p hp =>
      k.next_special m p (by rw [hp]; cases k <;> decide)
    have s1 := fun rest => runs_staged (eof := k.kind.eof) k.kind.arms k.kind.next _
      (fun p hp => hpl p (List.mem_append_left _ hp)) Mode.start (Entry.dflt k.decls) h1 rest
    have s2 : ∀ rest, Runs k.kind.eof (stagedStep k.kind.arms k.kind.next)
        (m1, { Entry.dflt k.decls with fields := r1 })
        (if .r14 ≤ v then a.ext.flatMap ExtGroup.pairs else [])
        (m1, ⟨r1, if .r14 ≤ v then ExtGroup.kept a.ext else [], []⟩) rest := by
      intro rest
      by_cases hv : .r14 ≤ v
      · simp only [if_pos hv]
        have := runs_groups_staged (eof := k.kind.eof) k.kind.arms k.kind.next m1 h102 a.ext hext
          { Entry.dflt k.decls with fields := r1 } rest
        simpa [Entry.dflt] using this
      · simp only [if_neg hv]
        exact Runs.nil _ _
    have s3 := fun rest => runs_staged (eof := k.kind.eof) k.kind.arms k.kind.next _
      (fun p hp => hpl p (List.mem_append_right _ hp)) m1
      ⟨r1, if .r14 ≤ v then ExtGroup.kept a.ext else [], []⟩ hfold rest
    have s4 : Runs k.kind.eof (stagedStep k.kind.arms k.kind.next)
        (m, ⟨r, if .r14 ≤ v then ExtGroup.kept a.ext else [], []⟩)
        (xs.flatMap fun x => x.pairs v)
        (m, ⟨r, if .r14 ≤ v then ExtGroup.kept a.ext else [],
          if .r2000 ≤ v then xs else []⟩) rest := by
      by_cases hv : .r2000 ≤ v
      · have := runs_xdata_staged (eof := k.kind.eof) k.kind.arms k.kind.next m h1001 xs v hv
          ⟨r, if .r14 ≤ v then ExtGroup.kept a.ext else [], []⟩ rest hr.stops
        simpa [if_pos hv] using this
      · rw [xdata_old _ _ hv, if_neg hv]
        exact Runs.nil _ _
    have hrun := Runs.trans (s1 _) (Runs.trans (s2 _) (Runs.trans (s3 _) s4))
    obtain ⟨q, s, rfl, hq⟩ := hr
    have hloop := hrun.done hq
      ((toStream (emitAll head v a.fields ++
        ((if .r14 ≤ v then a.ext.flatMap ExtGroup.pairs else []) ++
          (emitAll tail v a.fields ++
            xs.flatMap fun x => x.pairs v))) ++ some (.ok q) :: s).length + 1) (by simp; omega)
    rw [written, toStream_cons, List.cons_append, readEntity,
      Rd.bind_ok (Rd.next_cons (by simp [CodePair.newStr]) _), if_pos (by rfl),
      Rd.bind_ok (m := Rd.lift (CodePair.newStr 0 k.kind.typeString).assertString)
        (a := k.kind.typeString) rfl,
      if_neg (by simp only [not_or]; exact k.typeString_ne)]
    rw [k.ofType_typeString]
    simp only
    rw [Rd.bind_ok (by rw [Rd.run_withFuel]; exact hloop)]
    simp only
    cases k.kind.sub m <;> rfl

theorem front_written (k : EName) (n : Nat) (v : Version) (wh : Bool) (a : Entry k.decls)
    (xs : List XData) : k.front n v wh a ++ (xs.flatMap fun x => x.pairs v) =
      k.written v (commonHead k.kind.spec wh) (commonCmds k.kind.spec wh ++ k.kind.cmds n) a xs := by
  simp [front, written]

/-- Reading the pairs of an entity. -/
theorem read_front (k : EName) (n : Nat) (v : Version) (wh : Bool) {sk : List Nat}
    (hc : k.check n v wh sk = true) (a : Entry k.decls) (hext : ExtGroup.AllPlain a.ext)
    (xs : List XData) (rest : Stream) (hr : StartsZero rest) :
    ∃ b, k.Reads n v wh a xs b ∧ ∀ fuel,
      readEntity (fuel + 1) (toStream (k.front n v wh a ++ xs.flatMap fun x => x.pairs v) ++ rest) =
        (.ok (some ⟨k, k.subOf n, b⟩), rest) := by
  obtain ⟨as, m, ha, hsafe, _, hplain, hsub, _⟩ := check_spec hc
  obtain ⟨r, hfold, hread⟩ := read_written k v (commonHead k.kind.spec wh)
    (commonCmds k.kind.spec wh ++ k.kind.cmds n) (k.steady n wh) ha hsafe hplain a hext xs rest hr
  refine ⟨⟨r.finish, if .r14 ≤ v then ExtGroup.kept a.ext else [],
    if .r2000 ≤ v then xs else []⟩, ⟨m, r, hfold, hsub, rfl, rfl, rfl⟩, fun fuel => ?_⟩
  rw [front_written, hread, hsub]

/-! ### Fields -/

theorem annotate_append {ds : List Decl} {M : Type} [DecidableEq M] {next : M → CodePair → M}
    {vals : Int → Bool} {m m' : M} {a b : List (GCmd ds)} {as : List (M × GCmd ds)}
    (h : annotate next vals m (a ++ b) = some (as, m')) : ∃ as1 m1 as2,
      annotate next vals m a = some (as1, m1) ∧ annotate next vals m1 b = some (as2, m') ∧
      as = as1 ++ as2 := by
  induction a generalizing m as with
  | nil => exact ⟨[], m, as, rfl, h, rfl⟩
  | cons g gs ih =>
    rw [List.cons_append, annotate] at h
    rw [annotate]
    cases hm : modeAfter next vals m g.cmd with
    | none => rw [hm] at h; cases h
    | some m1 =>
      rw [hm] at h
      simp only at h
      cases h2 : annotate next vals m1 (gs ++ b) with
      | none => rw [h2] at h; cases h
      | some y =>
        rw [h2] at h
        simp only [Option.map_some, Option.some.injEq, Prod.mk.injEq] at h
        obtain ⟨as1, m2, as2, e1, e2, e3⟩ := ih (m := m1) (as := y.1) (by rw [h2, ← h.2])
        exact ⟨(m, g) :: as1, m2, as2, by simp [e1], e2, by rw [← h.1, e3]; rfl⟩

/-- Reading what two lists of statements emit, one after the other. -/
theorem staged_split {ds : List Decl} {M : Type} [DecidableEq M] (arms : M → List (Arm ds))
    (next : M → CodePair → M) (vals : Int → Bool)
    (hn : ∀ m (p q : CodePair), p.code = q.code → vals p.code = false → next m p = next m q)
    (v : Version) (r : Rec ds) (pre post : List (GCmd ds))
    (hgate : ∀ g ∈ pre ++ post, versionGate g.min g.max v = true)
    (hcond : ∀ g ∈ pre ++ post, (∀ r, g.cond r = true) ∨
      ∀ m, modeAfter next vals m g.cmd = some m)
    (m m' : M) (as : List (M × GCmd ds))
    (ha : annotate next vals m (pre ++ post) = some (as, m'))
    (hsafe : ∀ x ∈ as, ∀ r0, ∃ r1, foldPairs (arms x.1) r0 (x.2.cmd.emit r) = .ok r1)
    (r0 r' : Rec ds) (hf : foldStaged arms next (m, r0) (emitAll (pre ++ post) v r) = .ok (m', r')) :
    ∃ as1 m1 as2 r1, annotate next vals m pre = some (as1, m1) ∧
      annotate next vals m1 post = some (as2, m') ∧
      foldStaged arms next (m, r0) (emitAll pre v r) = .ok (m1, r1) ∧
      ∀ i, fieldOKa arms as2 i = true → (∀ x ∈ as2, CustomFrame (arms x.1)) →
        Representable post v r i → r' i = afterAll i post v r (r1 i) := by
  obtain ⟨as1, m1, as2, e1, e2, rfl⟩ := annotate_append ha
  obtain ⟨r1, f1, _⟩ := staged_fold arms next vals hn v r pre
    (fun g hg => hgate g (List.mem_append_left _ hg))
    (fun g hg => hcond g (List.mem_append_left _ hg)) m m1 as1 e1
    (fun x hx => hsafe x (List.mem_append_left _ hx)) r0
  obtain ⟨r2, f2, hr2⟩ := staged_fold arms next vals hn v r post
    (fun g hg => hgate g (List.mem_append_right _ hg))
    (fun g hg => hcond g (List.mem_append_right _ hg)) m1 m' as2 e2
    (fun x hx => hsafe x (List.mem_append_right _ hx)) r1
  rw [emitAll_append, foldStaged_append, f1] at hf
  simp only [f2, Except.ok.injEq, Prod.mk.injEq, true_and] at hf
  subst hf
  exact ⟨as1, m1, as2, r1, e1, e2, f1, hr2⟩

theorem reads_field {k : EName} {n : Nat} {v : Version} {wh : Bool} {sk : List Nat}
    (hc : k.check n v wh sk = true) {a : Entry k.decls} {xs : List XData} {b : Entry k.decls}
    (h : k.Reads n v wh a xs b) (i : Nat) (hi : i ∉ sk)
    (hrep : Representable (k.statements n wh) v a.fields i) :
    b.fields i = if Written (k.statements n wh) v a.fields i then a.fields i
      else Rec.dflt k.decls i := by
  by_cases hl : i < k.decls.length
  · obtain ⟨as, m, ha, hsafe, hclean, _, hsub, hgrow⟩ := check_spec hc
    obtain ⟨m2, r2, hf2, _, hb, _⟩ := h
    obtain ⟨r, hfold, hval⟩ := staged_fold k.kind.arms k.kind.next k.vals k.next_code v a.fields
      (gated v (k.statements n wh)) (gated_gate v _)
      (fun g hg => (k.steady n wh g (gated_mem hg)).cond) Mode.start m as ha
      (fun x hx r0 => (hsafe x hx).elim (fun h => Cmd.safeL_ok _ _ h _ _)
        (fun h => k.exempt_ok _ _ h _ _)) (Rec.dflt k.decls)
    rw [emitAll_gated, hf2] at hfold
    simp only [Except.ok.injEq, Prod.mk.injEq] at hfold
    obtain ⟨rfl, rfl⟩ := hfold
    rw [hb, ← afterAll_value i _ v a.fields (hgrow i hl hi) hrep,
      ← hval i (clean_fieldOKa hclean hi hl) (fun x _ => k.frame x.1) (representable_gated hrep)]
    rfl
  · exact den_beyond (by omega) _ _

/-! #### Fields that are overwritten -/

/-- The common statements. -/
def latePre (k : EName) (wh : Bool) : List (GCmd k.decls) :=
  commonHead k.kind.spec wh ++ commonCmds k.kind.spec wh

/-- The specific ones. -/
def latePost (k : EName) : List (GCmd k.decls) := k.kind.cmds 0

/-- Fields of `is` are first stored by other statements, then by their own ones. -/
def lateOK (k : EName) (is : List Nat) (v : Version) (wh : Bool) : Bool :=
  match annotate k.kind.next k.vals Mode.start (gated v (k.latePre wh)) with
  | none => false
  | some (_, m) =>
    decide (m = Mode.start) &&
    match annotate k.kind.next k.vals Mode.start (gated v k.latePost) with
    | none => false
    | some (as, _) => is.all fun i =>
        fieldOKa k.kind.arms as i && oneOK (gated v k.latePost) i && !(tyAt k.decls i).grows

theorem lateOK_mText : ∀ v ∈ Version.all, ∀ wh, EName.mText.lateOK [34, 35, 43] v wh = true := by
  decide +kernel

theorem lateOK_proxy : ∀ v ∈ Version.all, ∀ wh, EName.proxyEntity.lateOK [20] v wh = true := by
  decide +kernel

/-! #### Packed fields of dimensions -/

/-- The statements of a dimension up to the packed pair. -/
def dimPre (wh : Bool) : List (GCmd EName.dimension.decls) :=
  commonHead Ent.dimensionSpec wh ++ commonCmds Ent.dimensionSpec wh ++
    Ent.dimensionBaseCmds.take 5

def dimWord : GCmd EName.dimension.decls :=
  { cmd := .computed (t := .i16) 70 .i16 Ent.dimensionWord }

/-- The statements after it. -/
def dimPost (n : Nat) : List (GCmd EName.dimension.decls) := (Ent.dimensionCmds n).drop 6

theorem dim_split (n : Nat) (wh : Bool) :
    EName.dimension.statements n wh = dimPre wh ++ (dimWord :: dimPost n) := by
  rfl

def dimOK (v : Version) (wh : Bool) (n : Nat) : Bool :=
  match annotate EName.dimension.kind.next EName.dimension.vals Mode.start
      (gated v (dimPre wh)),
    annotate EName.dimension.kind.next EName.dimension.vals Mode.start (gated v (dimPost n)) with
  | some (_, m), some (as, _) => decide (m = Mode.start) &&
    [22, 32, 33, 34].all fun i => fieldOKa EName.dimension.kind.arms as i &&
      (gated v (dimPost n)).all fun g => !g.writes i
  | _, _ => false

theorem dimOK_all : ∀ v ∈ Version.all, ∀ wh, ∀ n ∈ [1, 2, 3, 4, 5], dimOK v wh n = true := by decide +kernel

theorem dimWord_unpack (x : Fin E.dimensionType.length) (a b c : Bool) :
    let val : I16 := BitVec.ofInt 16 (E.dimensionType.get x)
    let val := bif a then val ||| 32#16 else val
    let val := bif b then val ||| 64#16 else val
    let w := bif c then val ||| 128#16 else val
    enumOfInt E.dimensionType ⟨1, by decide⟩ (w &&& 0x0F#16).toInt = x ∧
    decide (w &&& 32#16 = 32#16) = a ∧ decide (w &&& 64#16 = 64#16) = b ∧
    decide (w &&& 128#16 = 128#16) = c := by
  revert x a b c
  decide +kernel

/-- What the checks say about splitting the statements. -/
theorem reads_split {k : EName} {n : Nat} {v : Version} {wh : Bool} {sk : List Nat}
    (hc : k.check n v wh sk = true) {a : Entry k.decls} {xs : List XData} {b : Entry k.decls}
    (h : k.Reads n v wh a xs b) (pre post : List (GCmd k.decls))
    (hsp : k.statements n wh = pre ++ post) :
    ∃ as1 m1 as2 m2, ∃ r1 r2 : Rec k.decls,
      annotate k.kind.next k.vals Mode.start (gated v pre) = some (as1, m1) ∧
      annotate k.kind.next k.vals m1 (gated v post) = some (as2, m2) ∧
      foldStaged k.kind.arms k.kind.next (Mode.start, Rec.dflt k.decls)
        (emitAll (gated v pre) v a.fields) = .ok (m1, r1) ∧ b.fields = r2.finish ∧
      ∀ i, fieldOKa k.kind.arms as2 i = true → Representable (gated v post) v a.fields i →
        r2 i = afterAll i (gated v post) v a.fields (r1 i) := by
  obtain ⟨as, m, ha, hsafe, _, _, _, _⟩ := check_spec hc
  obtain ⟨m2, r2, hf2, _, hb, _⟩ := h
  have hst := k.steady n wh
  rw [← emitAll_gated] at hf2
  obtain ⟨r, hfold, _⟩ := staged_fold k.kind.arms k.kind.next k.vals k.next_code v a.fields
    (gated v (k.statements n wh)) (gated_gate v _)
    (fun g hg => (k.steady n wh g (gated_mem hg)).cond) Mode.start m as ha
    (fun x hx r0 => (hsafe x hx).elim (fun h => Cmd.safeL_ok _ _ h _ _)
      (fun h => k.exempt_ok _ _ h _ _)) (Rec.dflt k.decls)
  rw [hf2] at hfold
  simp only [Except.ok.injEq, Prod.mk.injEq] at hfold
  obtain ⟨rfl, rfl⟩ := hfold
  rw [hsp, gated_append] at hf2 ha
  rw [hsp] at hst
  obtain ⟨as1, m1, as2, r1, e1, e2, e3, e4⟩ := staged_split k.kind.arms k.kind.next k.vals
    k.next_code v a.fields (gated v pre) (gated v post)
    (by rw [← gated_append]; exact gated_gate v _)
    (fun g hg => by
      rw [← gated_append] at hg
      exact (hst g (gated_mem hg)).cond) Mode.start m2 as ha
    (fun x hx r0 => (hsafe x hx).elim (fun h => Cmd.safeL_ok _ _ h _ _)
      (fun h => k.exempt_ok _ _ h _ _)) (Rec.dflt k.decls) r2 hf2
  exact ⟨as1, m1, as2, m2, r1, r2, e1, e2, e3, hb, fun i hi hrep =>
    e4 i hi (fun x _ => k.frame x.1) hrep⟩

theorem late_field {k : EName} {is : List Nat} {v : Version} {wh : Bool} {sk : List Nat}
    (hlate : k.lateOK is v wh = true)
    (hc : k.check 0 v wh sk = true) {a b : Entry k.decls} {xs : List XData}
    (h : k.Reads 0 v wh a xs b) (i : Nat) (hi : i ∈ is)
    (hrep : Representable (k.statements 0 wh) v a.fields i)
    (hw : Written k.latePost v a.fields i) :
    b.fields i = if Written (k.statements 0 wh) v a.fields i then a.fields i
      else Rec.dflt k.decls i := by
  have hsp : k.statements 0 wh = k.latePre wh ++ k.latePost := by
    simp [statements, latePre, latePost]
  obtain ⟨as1, m1, as2, m2, r1, r2, e1, e2, e3, hb, e4⟩ := reads_split hc h _ _ hsp
  unfold lateOK at hlate
  rw [e1] at hlate
  simp only [Bool.and_eq_true, decide_eq_true_eq] at hlate
  obtain ⟨rfl, hlate⟩ := hlate
  rw [e2] at hlate
  simp only [List.all_eq_true, Bool.and_eq_true, Bool.not_eq_true'] at hlate
  obtain ⟨⟨h1, h2⟩, hgr⟩ := hlate i hi
  have hw'' : Written (k.statements 0 wh) v a.fields i := by
    obtain ⟨g, hg, hh⟩ := hw
    exact ⟨g, by rw [hsp]; exact List.mem_append_right _ hg, hh⟩
  rw [if_pos hw'', hb]
  have hv := e4 i h1 (representable_gated fun g hg => hrep g (by
    rw [hsp]; exact List.mem_append_right _ hg))
  rw [afterAll_one i _ v a.fields h2 _ (.inl ((written_gated ..).mpr hw))] at hv
  change (tyAt k.decls i).finish (r2 i) = _
  rw [Ty.finish_of_not_grows hgr, hv]

theorem late_mText (v : Version) (r : Rec EName.mText.decls) (i : Nat) (hi : i ∈ [34, 35, 43]) :
    Written EName.mText.latePost v r i := by
  simp only [List.mem_cons, List.not_mem_nil, or_false] at hi
  rcases hi with rfl | rfl | rfl
  · exact ⟨{ cmd := .field 34 (.one 420 .i32) }, List.mem_of_getElem? (i := 17) rfl, rfl, rfl⟩
  · exact ⟨{ cmd := .field 35 (.one 430 .str) }, List.mem_of_getElem? (i := 18) rfl, rfl, rfl⟩
  · exact ⟨{ cmd := .field 43 (.one 48 .f64) }, List.mem_of_getElem? (i := 26) rfl, rfl, rfl⟩

theorem late_proxy (v : Version) (r : Rec EName.proxyEntity.decls) :
    Written EName.proxyEntity.latePost v r 20 :=
  ⟨{ cmd := .field 20 (.one 92 .i32) }, List.mem_of_getElem? (i := 3) rfl, rfl, rfl⟩

theorem packed_field {n : Nat} (hn : n ∈ [1, 2, 3, 4, 5]) {v : Version} {wh : Bool} {sk : List Nat}
    (hc : EName.dimension.check n v wh sk = true) {a b : Entry EName.dimension.decls}
    {xs : List XData} (h : EName.dimension.Reads n v wh a xs b) (i : Nat)
    (hi : i ∈ [22, 32, 33, 34]) : b.fields i = a.fields i := by
  have hsp : EName.dimension.statements n wh = (dimPre wh ++ [dimWord]) ++ dimPost n := by
    rw [dim_split]
    simp
  obtain ⟨as1, m1, as2, m2, r1, r2, e1, e2, e3, hb, e4⟩ := reads_split hc h _ _ hsp
  have hdim := dimOK_all v (version_mem v) wh n hn
  unfold dimOK at hdim
  rw [gated_append] at e1 e3
  obtain ⟨as0, m0, asw, f1, f2, rfl⟩ := annotate_append e1
  rw [f1] at hdim
  have hg1 : gated v [dimWord] = [dimWord] := rfl
  rw [hg1] at f2 e3
  have hm1 : m1 = m0 := by
    have : annotate EName.dimension.kind.next EName.dimension.vals m0 [dimWord] =
        some ([(m0, dimWord)], m0) := by
      simp [annotate, modeAfter, dimWord, vals, kind, Ent.dimensionNext, probe]
    rw [this] at f2
    simp only [Option.some.injEq, Prod.mk.injEq] at f2
    exact f2.2.symm
  subst hm1
  cases hq : annotate EName.dimension.kind.next EName.dimension.vals Mode.start
      (gated v (dimPost n)) with
  | none => rw [hq] at hdim; cases hdim
  | some y =>
    rw [hq] at hdim
    simp only [Bool.and_eq_true, decide_eq_true_eq, List.all_eq_true, Bool.not_eq_true'] at hdim
    obtain ⟨rfl, hdim⟩ := hdim
    rw [hq] at e2
    simp only [Option.some.injEq] at e2
    subst e2
    obtain ⟨g1, g2⟩ := hdim i hi
    have hnw : ¬ Written (gated v (dimPost n)) v a.fields i := by
      rintro ⟨g, hg, hgw, _⟩
      rw [g2 g hg] at hgw
      cases hgw
    have hv := e4 i g1 (fun g hg hh w hw => by
      have := g2 g hg
      rw [onField_writes] at this
      simp [Cmd.onField, hw] at this)
    rw [afterAll_not_written i _ v a.fields _ hnw] at hv
    rw [emitAll_append, foldStaged_append] at e3
    cases h0 : foldStaged EName.dimension.kind.arms EName.dimension.kind.next
        (Mode.start, Rec.dflt EName.dimension.decls) (emitAll (gated v (dimPre wh)) v a.fields) with
    | error e => rw [h0] at e3; cases e3
    | ok st =>
      obtain ⟨m0, r0⟩ := st
      rw [h0] at e3
      have hem : emitAll [dimWord] v a.fields = [.newI16 70 (Ent.dimensionWord a.fields)] := rfl
      rw [hem] at e3
      simp only [foldStaged] at e3
      have hnext : EName.dimension.kind.next m0 (.newI16 70 (Ent.dimensionWord a.fields)) = m0 :=
        EName.dimension.next_special m0 _ (show (70 : Int) ∉ [100] by decide)
      rw [hnext] at e3
      cases hap : applyPair (EName.dimension.kind.arms m0) r0
          (.newI16 70 (Ent.dimensionWord a.fields)) with
      | error e => rw [hap] at e3; cases e3
      | ok r3 =>
        rw [hap] at e3
        simp only [Except.ok.injEq, Prod.mk.injEq] at e3
        obtain ⟨rfl, rfl⟩ := e3
        have hap' : applyPair (EName.dimension.kind.arms Mode.start) r0
          (.newI16 70 (Ent.dimensionWord a.fields)) =
          (.ok ((((r0.set 32 (decide (Ent.dimensionWord a.fields &&& 32#16 = 32#16) : Bool)).set 33
            (decide (Ent.dimensionWord a.fields &&& 64#16 = 64#16) : Bool)).set
            34 (decide (Ent.dimensionWord a.fields &&& 128#16 = 128#16) : Bool)).set 22
            (enumOfInt E.dimensionType ⟨1, by decide⟩
              (Ent.dimensionWord a.fields &&& 0x0F#16).toInt : Fin (List.length E.dimensionType))) :
            Except DxfErr (Rec EName.dimension.decls)) := rfl
        rw [hap'] at hap
        have hap := Except.ok.inj hap
        obtain ⟨u1, u2, u3, u4⟩ := dimWord_unpack (a.fields 22) (a.fields 32) (a.fields 33)
          (a.fields 34)
        rw [hb]
        change (tyAt EName.dimension.decls i).finish (r2 i) = _
        simp only [List.mem_cons, List.not_mem_nil, or_false] at hi
        rcases hi with rfl | rfl | rfl | rfl
        · rw [Ty.finish_of_not_grows rfl, hv, ← hap]
          exact u1
        · rw [Ty.finish_of_not_grows rfl, hv, ← hap]
          exact u2
        · rw [Ty.finish_of_not_grows rfl, hv, ← hap]
          exact u3
        · rw [Ty.finish_of_not_grows rfl, hv, ← hap]
          exact u4

theorem checkAll_spec {k : EName} {n : Nat} {from_ : Version} (h : k.checkAll n from_ = true)
    {v : Version} (hs : k.supported v = true) (hv : from_ ≤ v) (wh : Bool) :
    k.check n v wh (k.skip v) = true := by
  have := List.all_eq_true.mp h v (version_mem v)
  simp only [hs, hv, decide_true, Bool.not_true, Bool.false_or, Bool.and_eq_true] at this
  cases wh
  · exact this.2
  · exact this.1

theorem v1_0_le (v : Version) : Version.v1_0 ≤ v := by cases v <;> decide

/-- The numbers with which an entity of a kind is written in a version, except that a rotated
dimension cannot be read back before R13. -/
def Num (k : EName) (n : Nat) (v : Version) : Prop :=
  match k with
  | .insert => n = 0 ∨ n = 1
  | .dimension => n ∈ [1, 2, 3, 4, 5] ∧ (n = 1 → .r13 ≤ v)
  | _ => n = 0

theorem check_num {k : EName} {n : Nat} {v : Version} (hn : k.Num n v)
    (hs : k.supported v = true) (wh : Bool) : k.check n v wh (k.skip v) = true := by
  have h0 : k ≠ .dimension → n = 0 → k.check n v wh (k.skip v) = true := by
    rintro hk rfl
    have := check_kinds k k.mem_all
    simp only [hk, decide_false, Bool.false_or] at this
    exact checkAll_spec this hs (v1_0_le v) wh
  cases k
  case insert =>
    rcases hn with hn | rfl
    · exact h0 (by simp) hn
    · exact checkAll_spec check_insert hs (v1_0_le v) wh
  case dimension =>
    obtain ⟨hn, h1⟩ := hn
    rw [List.mem_cons] at hn
    rcases hn with rfl | hn
    · exact checkAll_spec check_rotated hs (h1 rfl) wh
    · exact checkAll_spec (check_dimension n hn) hs (v1_0_le v) wh
  all_goals exact h0 (by simp) hn

theorem reads_restored {k : EName} {n : Nat} {v : Version} (hn : k.Num n v)
    (hs : k.supported v = true) {wh : Bool} {a b : Entry k.decls} {xs : List XData}
    (h : k.Reads n v wh a xs b) : k.Restored n v wh { a with xdata := xs } b := by
  have hc := check_num hn hs wh
  refine ⟨fun i hl hp hrep => ?_, fun i hi => ?_, ?_⟩
  · by_cases hk : k = .mText
    · subst hk
      have hn : n = 0 := hn
      subst hn
      by_cases hi : i ∈ [34, 35, 43]
      · exact late_field (lateOK_mText v (version_mem v) wh) hc h i hi hrep
          (late_mText v a.fields i hi)
      · refine reads_field hc h i (fun hm => ?_) hrep
        rcases List.mem_append.mp hm with hm | hm
        · exact hl hm
        · exact hi hm
    · by_cases hk' : k = .proxyEntity
      · subst hk'
        have hn : n = 0 := hn
        subst hn
        by_cases hi : i = 20
        · subst hi
          exact late_field (lateOK_proxy v (version_mem v) wh) hc h 20 (by simp) hrep
            (late_proxy v a.fields)
        · refine reads_field hc h i (fun hm => ?_) hrep
          rcases List.mem_append.mp hm with hm | hm
          · exact hl hm
          · exact hi (List.mem_singleton.mp hm)
      · refine reads_field hc h i (fun hm => ?_) hrep
        have : k.skip v = k.lost v ++ k.packed := by
          cases k <;> first | rfl | exact absurd rfl hk | exact absurd rfl hk'
        rw [this] at hm
        rcases List.mem_append.mp hm with hm | hm
        · exact hl hm
        · exact hp hm
  · cases k
    case dimension => exact packed_field hn.1 hc h i hi
    all_goals exact absurd hi List.not_mem_nil
  · obtain ⟨_, _, _, _, _, h1, h2⟩ := h
    exact ⟨h1, h2⟩

end EName

/-! ### Attached entities -/

theorem EName.front_cons (k : EName) (n : Nat) (v : Version) (wh : Bool) (e : Entry k.decls) :
    ∃ t, k.front n v wh e = .newStr 0 k.kind.typeString :: t := by
  simp [EName.front]

/-- Nothing, or pairs that start with a code 0. -/
def ZeroOrNil (ps : List CodePair) : Prop := ps = [] ∨ ∃ s t, ps = .newStr 0 s :: t

theorem ZeroOrNil.append {a b : List CodePair} (ha : ZeroOrNil a) (hb : ZeroOrNil b) :
    ZeroOrNil (a ++ b) := by
  rcases ha with rfl | ⟨s, t, rfl⟩
  · exact hb
  · exact .inr ⟨s, t ++ b, rfl⟩

theorem ZeroOrNil.flatMap {α : Type} {f : α → List CodePair} (h : ∀ x, ZeroOrNil (f x))
    (l : List α) : ZeroOrNil (l.flatMap f) := by
  induction l with
  | nil => exact .inl rfl
  | cons x l ih => rw [List.flatMap_cons]; exact (h x).append ih

theorem EName.pairs_zero (k : EName) (n : Nat) (v : Version) (wh : Bool) (e : Entry k.decls)
    (post : List CodePair) : ZeroOrNil (k.pairs n v wh e post) := by
  unfold EName.pairs
  split
  · obtain ⟨t, ht⟩ := k.front_cons n v wh e
    exact .inr ⟨_, _, by rw [ht]; rfl⟩
  · exact .inl rfl

theorem Entity.post_zero (v : Version) (wh : Bool) (e : Entity) : ZeroOrNil (e.post v wh) := by
  have hm : ∀ c m, ZeroOrNil (mTextPairs v wh c m) := fun c m => EName.pairs_zero ..
  have hse : ∀ h, ZeroOrNil (seqendPairs wh h) := fun h => .inr ⟨_, _, rfl⟩
  obtain ⟨⟨k, n, en⟩, x⟩ := e
  cases k
  case «attribute» | attributeDefinition => exact hm _ _
  case insert =>
    refine (ZeroOrNil.flatMap (fun a => EName.pairs_zero ..) _).append ?_
    cases x.atts.isEmpty
    · exact hse _
    · exact .inl rfl
  case polyline =>
    exact (ZeroOrNil.flatMap (fun a => EName.pairs_zero ..) _).append (hse _)
  all_goals exact .inl rfl

theorem ZeroOrNil.starts {ps : List CodePair} (h : ZeroOrNil ps) (hne : ps ≠ []) (rest : Stream) :
    StartsZero (toStream ps ++ rest) := by
  rcases h with rfl | ⟨s, t, rfl⟩
  · exact absurd rfl hne
  · exact ⟨.newStr 0 s, toStream t ++ rest, rfl, rfl⟩

theorem Entity.num_num {e : Entity} {v : Version} (hp : e.toFlat.Proper)
    (ho : ¬ e.toFlat.OldRotated v) : e.kind.Num e.num v ∧ e.kind.subOf e.num = e.sub := by
  obtain ⟨⟨k, n, en⟩, x⟩ := e
  unfold Flat.Proper at hp
  simp only at hp
  cases k
  case insert =>
    have hp : n = 0 := by simpa using hp
    refine ⟨?_, hp.symm⟩
    simp only [EName.Num, Entity.num]
    cases x.atts.isEmpty
    · exact .inr rfl
    · exact .inl rfl
  case dimension =>
    simp only [if_true] at hp
    refine ⟨⟨hp, fun h => ?_⟩, rfl⟩
    by_contra hv
    exact ho ⟨rfl, h, hv⟩
  all_goals
    have hp : n = 0 := by simpa using hp
    exact ⟨hp, hp.symm⟩

end Dxf
