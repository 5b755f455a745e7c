import Verif.Spec.Count
import Verif.Lemmas.Collect
import Verif.Lemmas.ObjectRead

/-! Numbers that announce how much of something follows. -/

namespace Dxf

/-! ### Counting -/

/-- How often a code occurs. -/
def times (x : Int) (ps : List CodePair) : Nat := (ps.filter fun p => decide (p.code = x)).length

theorem times_nil (x : Int) : times x [] = 0 := rfl

theorem times_append (x : Int) (a b : List CodePair) : times x (a ++ b) = times x a + times x b := by
  simp [times]

theorem times_zero {x : Int} {ps : List CodePair} (h : ∀ p ∈ ps, p.code ≠ x) : times x ps = 0 := by
  unfold times
  rw [List.length_eq_zero_iff, List.filter_eq_nil_iff]
  intro p hp
  simpa using h p hp

theorem times_all {x : Int} {ps : List CodePair} (h : ∀ p ∈ ps, p.code = x) :
    times x ps = ps.length := by
  unfold times
  rw [List.filter_eq_self.mpr]
  intro p hp
  simpa using h p hp

theorem times_flatMap {α : Type} {x : Int} {f : α → List CodePair} (h : ∀ a, times x (f a) = 1)
    (l : List α) : times x (l.flatMap f) = l.length := by
  induction l with
  | nil => rfl
  | cons a l ih => rw [List.flatMap_cons, times_append, h, ih, List.length_cons, Nat.add_comm]

/-- Pairs of the item itself, and others that come after its end or are extended data. -/
theorem follow_append {x : Int} {a b : List CodePair} (hx : x < 1000) (ha : ∀ p ∈ a, p.code ≠ 0)
    (hb : ∀ p ∈ b.takeWhile (fun p => decide (p.code ≠ 0)), 1000 ≤ p.code) :
    follow x (a ++ b) = times x a := by
  have e : (a ++ b).takeWhile (fun p => decide (p.code ≠ 0)) =
      a ++ b.takeWhile (fun p => decide (p.code ≠ 0)) := by
    rw [List.takeWhile_append_of_pos]
    intro p hp
    simpa using ha p hp
  have h0 : times x (b.takeWhile (fun p => decide (p.code ≠ 0))) = 0 :=
    times_zero fun p hp => by have := hb p hp; omega
  have h1 := times_append x a (b.takeWhile (fun p => decide (p.code ≠ 0)))
  unfold follow
  rw [e]
  unfold times at h0 h1
  rw [h1, h0]
  rfl

/-! ### Statements -/

section Cmds

variable {ds : List Decl}

/-- A statement that writes the code. -/
def GCmd.mentions (x : Int) (g : GCmd ds) : Bool := decide (x ∈ g.cmd.codes)

theorem emit_codes {g : GCmd ds} {v : Version} {r : Rec ds} {p : CodePair} (h : p ∈ g.emit v r) :
    p.code ∈ g.cmd.codes := by
  unfold GCmd.emit at h
  split at h
  · exact g.cmd.mem_codes r p h
  · cases h

theorem times_emitAll (x : Int) (gs : List (GCmd ds)) (v : Version) (r : Rec ds) :
    times x (emitAll gs v r) = times x (emitAll (gs.filter (GCmd.mentions x)) v r) := by
  induction gs with
  | nil => rfl
  | cons g gs ih =>
    have e : emitAll (g :: gs) v r = g.emit v r ++ emitAll gs v r := rfl
    rw [e, times_append, ih, List.filter_cons]
    by_cases hg : g.mentions x = true
    · rw [if_pos hg]
      exact (times_append x _ _).symm
    · rw [if_neg hg, times_zero, Nat.zero_add]
      rintro p hp rfl
      exact hg (decide_eq_true (emit_codes hp))

theorem emitAll_ne {x : Int} {gs : List (GCmd ds)} (h : gs.all (fun g => !g.mentions x) = true)
    {v : Version} {r : Rec ds} : ∀ p ∈ emitAll gs v r, p.code ≠ x := by
  rintro p hp rfl
  obtain ⟨g, hg, hp⟩ := List.mem_flatMap.mp hp
  have := List.all_eq_true.mp h g hg
  rw [show g.mentions p.code = true from decide_eq_true (emit_codes hp)] at this
  cases this

/-- A statement that is always executed, among others. -/
theorem emitAll_split {gs pre rest : List (GCmd ds)} {t : Ty} {c : Int} {w : WConv t}
    {f : Rec ds → t.den} {lo : Option Version} (hs : gs = pre ++
      { cmd := .computed c w f, min := lo } :: rest) {v : Version} (hv : versionGate lo none v = true)
    (r : Rec ds) : emitAll gs v r = emitAll pre v r ++ w.write c (f r) :: emitAll rest v r := by
  subst hs
  rw [emitAll_append]
  congr 1
  change GCmd.emit _ v r ++ emitAll rest v r = _
  unfold GCmd.emit GCmd.holds
  rw [hv]
  rfl

end Cmds

/-! ### The numbers -/

theorem says_i16 (c : Int) (n : Nat) :
    (n < 2 ^ 15 → Says (.newI16 c (BitVec.ofNat 16 n)) n) ∧
      (2 ^ 15 ≤ n → ¬ Says (.newI16 c (BitVec.ofNat 16 n)) n) := by
  have : (BitVec.ofNat 16 n).toInt = (n : Int).bmod (2 ^ 16) := by
    rw [BitVec.toInt_ofNat']
  constructor
  · intro h
    change (BitVec.ofNat 16 n).toInt = n
    rw [this, Int.bmod_eq_of_le] <;> omega
  · intro h h'
    change (BitVec.ofNat 16 n).toInt = n at h'
    have := BitVec.toInt_lt (x := BitVec.ofNat 16 n)
    omega

theorem says_i32 (c : Int) (n : Nat) :
    (n < 2 ^ 31 → Says (.newI32 c (BitVec.ofNat 32 n)) n) ∧
      (2 ^ 31 ≤ n → ¬ Says (.newI32 c (BitVec.ofNat 32 n)) n) := by
  have : (BitVec.ofNat 32 n).toInt = (n : Int).bmod (2 ^ 32) := by
    rw [BitVec.toInt_ofNat']
  constructor
  · intro h
    change (BitVec.ofNat 32 n).toInt = n
    rw [this, Int.bmod_eq_of_le] <;> omega
  · intro h h'
    change (BitVec.ofNat 32 n).toInt = n at h'
    have := BitVec.toInt_lt (x := BitVec.ofNat 32 n)
    omega

theorem says_short (c : Int) (n : Nat) :
    (n < 2 ^ 15 → Says (WConv.i32AsI16.write c (BitVec.ofNat 32 n)) n) ∧
      (2 ^ 15 ≤ n → ¬ Says (WConv.i32AsI16.write c (BitVec.ofNat 32 n)) n) := by
  have : WConv.i32AsI16.write c (BitVec.ofNat 32 n) = .newI16 c (BitVec.ofNat 16 n) := by
    change CodePair.newI16 c _ = _
    congr 1
    exact BitVec.eq_of_toNat_eq (by simp)
  rw [this]
  exact says_i16 c n

/-! ### Entities -/

/-- What comes after the fields of an entity. -/
theorem post_ge (e : Entity) (v : Version) (wh : Bool) (xs : List XData) :
    ∀ p ∈ (e.post v wh ++ xs.flatMap fun x => x.pairs v).takeWhile (fun p => decide (p.code ≠ 0)),
      1000 ≤ p.code := by
  intro p hp
  rcases Entity.post_zero v wh e with h | ⟨q, t, h⟩
  · rw [h] at hp
    exact OName.xdata_codes xs v p ((List.takeWhile_sublist _).subset hp)
  · rw [h] at hp
    cases hp

/-- A number among the fields of an entity. -/
theorem entity_says (e : Entity) (v : Version) (wh : Bool) (hv : e.kind.supported v = true)
    {t : Ty} {c x : Int} {w : WConv t} {f : Rec e.kind.decls → t.den} {lo : Option Version}
    {pre rest els : List (GCmd e.kind.decls)} {more n : Nat}
    (hs : e.kind.kind.cmds e.num = pre ++ { cmd := .computed c w f, min := lo } :: rest)
    (hlo : versionGate lo none v = true) (hx : x < 1000)
    (h0 : rest.all (fun g => !g.mentions 0) = true) (hels : rest.filter (GCmd.mentions x) = els)
    (hn : times x (emitAll els v e.entry.fields) = n + more) :
    ∃ a b, e.pairs v wh = a ++ w.write c (f e.entry.fields) :: b ∧ follow x b = n + more := by
  unfold Entity.pairs EName.pairs
  rw [if_pos hv]
  unfold EName.front
  rw [emitAll_append, emitAll_split hs hlo]
  refine ⟨(CodePair.newStr 0 e.kind.kind.typeString :: emitAll (commonHead e.kind.kind.spec wh) v
      e.entry.fields ++ if Version.r14 ≤ v then e.entry.ext.flatMap ExtGroup.pairs else []) ++
      (emitAll (commonCmds e.kind.kind.spec wh) v e.entry.fields ++ emitAll pre v e.entry.fields),
    emitAll rest v e.entry.fields ++ (e.post v wh ++
    e.entry.xdata.flatMap fun x => x.pairs v), ?_, ?_⟩
  · simp only [List.append_assoc, List.cons_append]
  · rw [follow_append hx (emitAll_ne h0) (post_ge e v wh _), times_emitAll, hels, hn]

theorem entity_announces (e : Entity) (v : Version) (wh : Bool) (hv : e.kind.supported v = true)
    {t : Ty} {c x : Int} {w : WConv t} {f : Rec e.kind.decls → t.den} {lo : Option Version}
    {pre rest els : List (GCmd e.kind.decls)} {more limit n : Nat}
    (hs : e.kind.kind.cmds e.num = pre ++ { cmd := .computed c w f, min := lo } :: rest)
    (hlo : versionGate lo none v = true) (hx : x < 1000)
    (h0 : rest.all (fun g => !g.mentions 0) = true) (hels : rest.filter (GCmd.mentions x) = els)
    (hn : times x (emitAll els v e.entry.fields) = n + more)
    (hq : (n < limit → Says (w.write c (f e.entry.fields)) n) ∧
      (limit ≤ n → ¬ Says (w.write c (f e.entry.fields)) n)) :
    Announces (e.pairs v wh) c x more limit := by
  obtain ⟨a, b, h1, h2⟩ := entity_says e v wh hv hs hlo hx h0 hels hn
  exact ⟨a, _, b, n, h1, w.write_code c _, h2, hq⟩

/-! ### Lists in fields -/

theorem times_cons (x : Int) (p : CodePair) (ps : List CodePair) :
    times x (p :: ps) = (if p.code = x then 1 else 0) + times x ps := by
  unfold times
  by_cases h : p.code = x
  · rw [List.filter_cons_of_pos (by simpa using h), if_pos h, List.length_cons, Nat.add_comm]
  · rw [List.filter_cons_of_neg (by simpa using h), if_neg h, Nat.zero_add]

theorem times_many {t : Ty} (x : Int) (c : WConv t) (l : List t.den) :
    times x (l.map (c.write x)) = l.length := by
  rw [times_all, List.length_map]
  intro p hp
  obtain ⟨a, -, rfl⟩ := List.mem_map.mp hp
  exact c.write_code x a

theorem times_points {three : Bool} {x : Int} (code : Axis → Int) (h1 : code .x = x)
    (h2 : code .y ≠ x) (h3 : code .z ≠ x) (v : (Ty.pts three).den) :
    times x ((FWrite.points (three := three) code).emit v) = (PtAcc.pts v).length := by
  refine times_flatMap (fun q => ?_) (PtAcc.pts v)
  cases three <;>
    simp [axesOf, times_cons, times_nil, CodePair.newF64, h1, h2, h3]

theorem times_lw (b : Bool) (l : List LwVertex) :
    times 10 (l.flatMap (LwVertex.pairs b)) = l.length := by
  refine times_flatMap (fun q => ?_) l
  unfold LwVertex.pairs
  simp only [times_append]
  have h (P : Prop) [Decidable P] (a b : List CodePair) (ha : times 10 a = 0) (hb : times 10 b = 0) :
      times 10 (if P then a else b) = 0 := by split <;> assumption
  rw [h _ _ _ rfl rfl, h _ _ _ rfl rfl, h _ _ _ rfl rfl, h _ _ _ rfl rfl]
  rfl

theorem times_single {ds : List Decl} {x : Int} {g : GCmd ds} {v : Version} {r : Rec ds}
    (h : g.holds v r = true) : times x (emitAll [g] v r) = times x (g.cmd.emit r) := by
  have e : emitAll [g] v r = g.emit v r ++ [] := rfl
  rw [e, List.append_nil]
  unfold GCmd.emit
  rw [if_pos h]

theorem times_none {ds : List Decl} {x : Int} {g : GCmd ds} {v : Version} {r : Rec ds}
    (h : g.holds v r = false) : times x (emitAll [g] v r) = 0 := by
  have e : emitAll [g] v r = g.emit v r ++ [] := rfl
  rw [e, List.append_nil]
  unfold GCmd.emit
  rw [if_neg (by rw [h]; decide)]
  rfl

theorem times_two {ds : List Decl} (x : Int) (g g' : GCmd ds) (v : Version) (r : Rec ds) :
    times x (emitAll [g, g'] v r) = times x (emitAll [g] v r) + times x (emitAll [g'] v r) := by
  rw [← times_append, ← emitAll_append]
  rfl

/-- Every announced number of an entity. -/
theorem entity_announced (e : Entity) (v : Version) (wh : Bool) (hv : e.kind.supported v = true)
    {c x : Int} {more limit : Nat} (h : (c, x, more, limit) ∈ e.kind.announced v) :
    Announces (e.pairs v wh) c x more limit := by
  obtain ⟨⟨k, n, e⟩, y⟩ := e
  change (c, x, more, limit) ∈ k.announced v at h
  cases k <;> try (exact absurd h (List.not_mem_nil))
  case «attribute» =>
    by_cases hg : Version.r2007 ≤ v
    · obtain ⟨rfl, rfl, rfl, rfl⟩ : c = 70 ∧ x = 340 ∧ more = 0 ∧ limit = 2 ^ 15 := by
        simpa [EName.announced, hg] using h
      have hg' : versionGate (some .r2007) none v = true := by simp [versionGate, hg]
      refine entity_announces _ v wh hv (pre := Ent.attributeCmds.take 24)
        (rest := Ent.attributeCmds.drop 25) rfl hg' (by decide) rfl rfl ?_ (says_short _ _)
      refine (times_single ?_).trans (times_many _ _ _)
      exact Bool.and_eq_true_iff.mpr ⟨hg', rfl⟩
    · simp [EName.announced, hg] at h
  case «attributeDefinition» =>
    by_cases hg : Version.r2007 ≤ v
    · obtain ⟨rfl, rfl, rfl, rfl⟩ : c = 70 ∧ x = 340 ∧ more = 0 ∧ limit = 2 ^ 15 := by
        simpa [EName.announced, hg] using h
      have hg' : versionGate (some .r2007) none v = true := by simp [versionGate, hg]
      refine entity_announces _ v wh hv (pre := Ent.attributeDefinitionCmds.take 26)
        (rest := Ent.attributeDefinitionCmds.drop 27) rfl hg' (by decide) rfl rfl ?_ (says_short _ _)
      refine (times_single ?_).trans (times_many _ _ _)
      exact Bool.and_eq_true_iff.mpr ⟨hg', rfl⟩
    · simp [EName.announced, hg] at h
  case image =>
    obtain ⟨rfl, rfl, rfl, rfl⟩ : c = 91 ∧ x = 14 ∧ more = 0 ∧ limit = 2 ^ 31 := by
      simpa [EName.announced] using h
    refine entity_announces _ v wh hv (pre := Ent.imageCmds.take 14)
      (rest := Ent.imageCmds.drop 15) rfl rfl (by decide) rfl rfl ?_ (says_i32 _ _)
    refine (times_single rfl).trans (times_points (three := false)
        (fun | .x => 14 | .y => 24 | .z => 24) ?_ ?_ ?_ (e.fields 32)) <;> decide
  case leader =>
    obtain ⟨rfl, rfl, rfl, rfl⟩ : c = 76 ∧ x = 10 ∧ more = 0 ∧ limit = 2 ^ 15 := by
      simpa [EName.announced] using h
    refine entity_announces _ v wh hv (pre := Ent.leaderCmds.take 9)
      (rest := Ent.leaderCmds.drop 10) rfl rfl (by decide) rfl rfl ?_ (says_short _ _)
    refine (times_single rfl).trans (times_points (three := true)
        (fun | .x => 10 | .y => 20 | .z => 30) ?_ ?_ ?_ (e.fields 27)) <;> decide
  case lwPolyline =>
    obtain ⟨rfl, rfl, rfl, rfl⟩ : c = 90 ∧ x = 10 ∧ more = 0 ∧ limit = 2 ^ 31 := by
      simpa [EName.announced] using h
    refine entity_announces _ v wh hv (pre := Ent.lwPolylineCmds.take 1)
      (rest := Ent.lwPolylineCmds.drop 2) rfl rfl (by decide) rfl rfl ?_ (says_i32 _ _)
    refine (times_two _ _ _ _ _).trans ?_
    by_cases hg : Version.r2013 ≤ v
    · refine congrArg₂ (· + ·) ((times_single ?_).trans (times_lw _ _)) (times_none ?_) <;>
        cases v <;> first | rfl | (exact absurd hg (by decide))
    · refine (congrArg₂ (· + ·) (times_none ?_) ((times_single ?_).trans (times_lw _ _))).trans
        (Nat.zero_add _) <;>
        cases v <;> first | rfl | (exact absurd (by decide) hg)
  case wipeout =>
    obtain ⟨rfl, rfl, rfl, rfl⟩ : c = 91 ∧ x = 14 ∧ more = 0 ∧ limit = 2 ^ 31 := by
      simpa [EName.announced] using h
    refine entity_announces _ v wh hv (pre := Ent.wipeoutCmds.take 14)
      (rest := Ent.wipeoutCmds.drop 15) rfl rfl (by decide) rfl rfl ?_ (says_i32 _ _)
    refine (times_single rfl).trans (times_points (three := false)
        (fun | .x => 14 | .y => 24 | .z => 24) ?_ ?_ ?_ (e.fields 32)) <;> decide
  case «mLine» =>
    have h : (c = 72 ∧ x = 10 ∧ more = 1 ∧ limit = 2 ^ 15) ∨
        (c = 74 ∧ x = 41 ∧ more = 0 ∧ limit = 2 ^ 15) ∨
        (c = 75 ∧ x = 42 ∧ more = 0 ∧ limit = 2 ^ 15) := by
      simpa [EName.announced] using h
    rcases h with ⟨rfl, rfl, rfl, rfl⟩ | ⟨rfl, rfl, rfl, rfl⟩ | ⟨rfl, rfl, rfl, rfl⟩
    · refine entity_announces _ v wh hv (pre := Ent.mLineCmds.take 6)
        (rest := Ent.mLineCmds.drop 7) rfl rfl (by decide) rfl rfl ?_ (says_short _ _)
      refine (times_two _ _ _ _ _).trans ?_
      refine (congrArg₂ (· + ·) (times_single rfl) ((times_single rfl).trans
        (times_points (three := true)
        (fun | .x => 10 | .y => 20 | .z => 30) ?_ ?_ ?_ (e.fields 27)))).trans (Nat.add_comm _ _) <;> decide
    · refine entity_announces _ v wh hv (pre := Ent.mLineCmds.take 13)
        (rest := Ent.mLineCmds.drop 14) rfl rfl (by decide) rfl rfl ?_ (says_short _ _)
      exact (times_single rfl).trans (times_many _ _ _)
    · refine entity_announces _ v wh hv (pre := Ent.mLineCmds.take 15)
        (rest := Ent.mLineCmds.drop 16) rfl rfl (by decide) rfl rfl ?_ (says_short _ _)
      exact (times_single rfl).trans (times_many _ _ _)
  case «section» =>
    have h : (c = 92 ∧ x = 11 ∧ more = 0 ∧ limit = 2 ^ 31) ∨
        (c = 93 ∧ x = 12 ∧ more = 0 ∧ limit = 2 ^ 31) := by
      simpa [EName.announced] using h
    rcases h with ⟨rfl, rfl, rfl, rfl⟩ | ⟨rfl, rfl, rfl, rfl⟩
    · refine entity_announces _ v wh hv (pre := Ent.sectionCmds.take 10)
        (rest := Ent.sectionCmds.drop 11) rfl rfl (by decide) rfl rfl ?_ (says_i32 _ _)
      refine (times_single rfl).trans (times_points (three := true)
        (fun | .x => 11 | .y => 21 | .z => 31) ?_ ?_ ?_ (e.fields 28)) <;> decide
    · refine entity_announces _ v wh hv (pre := Ent.sectionCmds.take 12)
        (rest := Ent.sectionCmds.drop 13) rfl rfl (by decide) rfl rfl ?_ (says_i32 _ _)
      refine (times_single rfl).trans (times_points (three := true)
        (fun | .x => 12 | .y => 22 | .z => 32) ?_ ?_ ?_ (e.fields 30)) <;> decide
  case «spline» =>
    have h : (c = 72 ∧ x = 40 ∧ more = 0 ∧ limit = 2 ^ 15) ∨
        (c = 73 ∧ x = 10 ∧ more = 0 ∧ limit = 2 ^ 15) ∨
        (c = 74 ∧ x = 11 ∧ more = 0 ∧ limit = 2 ^ 15) := by
      simpa [EName.announced] using h
    rcases h with ⟨rfl, rfl, rfl, rfl⟩ | ⟨rfl, rfl, rfl, rfl⟩ | ⟨rfl, rfl, rfl, rfl⟩
    · refine entity_announces _ v wh hv (pre := Ent.splineCmds.take 4)
        (rest := Ent.splineCmds.drop 5) rfl rfl (by decide) rfl rfl ?_ (says_short _ _)
      exact (times_single rfl).trans (times_many _ _ _)
    · refine entity_announces _ v wh hv (pre := Ent.splineCmds.take 5)
        (rest := Ent.splineCmds.drop 6) rfl rfl (by decide) rfl rfl ?_ (says_short _ _)
      refine (times_single rfl).trans (times_points (three := true)
        (fun | .x => 10 | .y => 20 | .z => 30) ?_ ?_ ?_ (e.fields 31)) <;> decide
    · refine entity_announces _ v wh hv (pre := Ent.splineCmds.take 6)
        (rest := Ent.splineCmds.drop 7) rfl rfl (by decide) rfl rfl ?_ (says_short _ _)
      refine (times_single rfl).trans (times_points (three := true)
        (fun | .x => 11 | .y => 21 | .z => 31) ?_ ?_ ?_ (e.fields 32)) <;> decide

/-! ### Objects -/

theorem announces_of {ps a pre b : List CodePair} {q : CodePair} {xs : List XData} {v : Version}
    {c x : Int} {more limit n : Nat}
    (h : ps = a ++ (pre ++ q :: (b ++ xs.flatMap fun x => x.pairs v))) (hc : q.code = c) (hx : x < 1000)
    (h0 : ∀ p ∈ b, p.code ≠ 0) (hn : times x b = n + more)
    (hq : (n < limit → Says q n) ∧ (limit ≤ n → ¬ Says q n)) : Announces ps c x more limit := by
  refine ⟨a ++ pre, q, _, n, h.trans (List.append_assoc ..).symm, hc, ?_, hq⟩
  rw [follow_append hx h0, hn]
  intro p hp
  exact OName.xdata_codes xs v p ((List.takeWhile_sublist _).subset hp)

theorem ne_append {x : Int} {a b : List CodePair} (ha : ∀ p ∈ a, p.code ≠ x)
    (hb : ∀ p ∈ b, p.code ≠ x) : ∀ p ∈ a ++ b, p.code ≠ x := by
  intro p hp
  rcases List.mem_append.mp hp with hp | hp
  · exact ha p hp
  · exact hb p hp

theorem ne_flatMap {α : Type} {x : Int} {f : α → List CodePair} (h : ∀ a, ∀ p ∈ f a, p.code ≠ x)
    (l : List α) : ∀ p ∈ l.flatMap f, p.code ≠ x := by
  intro p hp
  obtain ⟨a, -, hp⟩ := List.mem_flatMap.mp hp
  exact h a p hp

theorem ne_map {α : Type} {x : Int} {f : α → CodePair} (h : ∀ a, (f a).code ≠ x)
    (l : List α) : ∀ p ∈ l.map f, p.code ≠ x := by
  intro p hp
  obtain ⟨a, -, rfl⟩ := List.mem_map.mp hp
  exact h a

theorem ne_cons {x : Int} {q : CodePair} {a : List CodePair} (hq : q.code ≠ x)
    (ha : ∀ p ∈ a, p.code ≠ x) : ∀ p ∈ q :: a, p.code ≠ x := by
  intro p hp
  rcases List.mem_cons.mp hp with rfl | hp
  · exact hq
  · exact ha p hp

theorem times_head {x : Int} {a b : List CodePair} {n : Nat} (ha : times x a = n)
    (hb : ∀ p ∈ b, p.code ≠ x) : times x (a ++ b) = n + 0 := by
  rw [times_append, ha, times_zero hb]

theorem times_map {α : Type} {x : Int} {f : α → CodePair} (h : ∀ a, (f a).code = x)
    (l : List α) : times x (l.map f) = l.length := by
  rw [times_all, List.length_map]
  intro p hp
  obtain ⟨a, -, rfl⟩ := List.mem_map.mp hp
  exact h a

theorem ne_of {x : Int} {q : CodePair} (h : decide (q.code = x) = false) : q.code ≠ x :=
  of_decide_eq_false h

theorem ne_nil {x : Int} : ∀ p ∈ ([] : List CodePair), p.code ≠ x := fun _ hp => nomatch hp

/-- The pairs of an object. -/
theorem object_pairs {o : Object} {v : Version} {ps tail : List CodePair}
    (hv : o.kind.supported v = true) (hp : o.pairs v = .ok ps) (ht : o.tail = .ok tail) :
    ∃ a, ps = a ++
      (emitAll o.kind.kind.cmds v o.entry.fields ++ (o.kind.mid o.extra ++
        (emitAll o.kind.kind.cmds2 v o.entry.fields ++ (o.kind.mid2 o.extra ++
        (emitAll o.kind.kind.cmds3 v o.entry.fields ++ (tail ++
          o.entry.xdata.flatMap fun x => x.pairs v)))))) := by
  unfold Object.pairs at hp
  rw [if_pos hv, ht] at hp
  injection hp with hp
  subst hp
  unfold Object.front
  rw [emitAll_append]
  refine ⟨CodePair.newStr 0 o.kind.kind.typeString :: emitAll (objectHead o.kind.kind.spec) v
    o.entry.fields ++ (if Version.r14 ≤ v then o.entry.ext.flatMap ExtGroup.pairs else []) ++
    emitAll (objectCmds o.kind.kind.spec) v o.entry.fields, ?_⟩
  simp only [List.append_assoc, List.cons_append]

/-- A number among the fields of an object that has only fields. -/
theorem object_says {o : Object} {v : Version} {ps : List CodePair}
    (hv : o.kind.supported v = true) (hp : o.pairs v = .ok ps) (ht : o.tail = .ok [])
    (h1 : o.kind.mid o.extra = []) (h2 : o.kind.kind.cmds2 = []) (h3 : o.kind.mid2 o.extra = [])
    (h4 : o.kind.kind.cmds3 = [])
    {t : Ty} {c x : Int} {w : WConv t} {f : Rec o.kind.decls → t.den}
    {pre rest els : List (GCmd o.kind.decls)} {more n : Nat}
    (hs : o.kind.kind.cmds = pre ++ { cmd := .computed c w f } :: rest) (hx : x < 1000)
    (h0 : rest.all (fun g => !g.mentions 0) = true) (hels : rest.filter (GCmd.mentions x) = els)
    (hn : times x (emitAll els v o.entry.fields) = n + more) :
    ∃ a b, ps = a ++ w.write c (f o.entry.fields) :: b ∧ follow x b = n + more := by
  obtain ⟨a, ha⟩ := object_pairs hv hp ht
  rw [h1, h2, h3, h4, emitAll_split hs rfl] at ha
  refine ⟨a ++ emitAll pre v o.entry.fields, emitAll rest v o.entry.fields ++
    o.entry.xdata.flatMap (fun x => x.pairs v), ha.trans ?_, ?_⟩
  · rw [List.append_assoc, List.append_assoc]
    rfl
  · rw [follow_append hx (emitAll_ne h0), times_emitAll, hels, hn]
    intro p hp
    exact OName.xdata_codes _ v p ((List.takeWhile_sublist _).subset hp)

theorem object_announces {o : Object} {v : Version} {ps : List CodePair}
    (hv : o.kind.supported v = true) (hp : o.pairs v = .ok ps) (ht : o.tail = .ok [])
    (h1 : o.kind.mid o.extra = []) (h2 : o.kind.kind.cmds2 = []) (h3 : o.kind.mid2 o.extra = [])
    (h4 : o.kind.kind.cmds3 = [])
    {t : Ty} {c x : Int} {w : WConv t} {f : Rec o.kind.decls → t.den}
    {pre rest els : List (GCmd o.kind.decls)} {more limit n : Nat}
    (hs : o.kind.kind.cmds = pre ++ { cmd := .computed c w f } :: rest) (hx : x < 1000)
    (h0 : rest.all (fun g => !g.mentions 0) = true) (hels : rest.filter (GCmd.mentions x) = els)
    (hn : times x (emitAll els v o.entry.fields) = n + more)
    (hq : (n < limit → Says (w.write c (f o.entry.fields)) n) ∧
      (limit ≤ n → ¬ Says (w.write c (f o.entry.fields)) n)) :
    Announces ps c x more limit := by
  obtain ⟨a, b, e1, e2⟩ := object_says hv hp ht h1 h2 h3 h4 hs hx h0 hels hn
  exact ⟨a, _, b, n, e1, w.write_code c _, e2, hq⟩

theorem Geometry.pairs_ne (g : Geometry) {x : Int}
    (h : geometryCmds.all (fun g => !g.mentions x) = true) (h3 : 3 ≠ x) :
    ∀ p ∈ Geometry.pairs g, p.code ≠ x :=
  ne_append (emitAll_ne h) (ne_cons h3 ne_nil)

theorem SectionType.pairs_ne (s : SectionType) : ∀ p ∈ s.pairs, p.code ≠ 0 := by
  unfold SectionType.pairs
  refine ne_append (ne_append (ne_append (ne_append ?_ ?_) ?_) ?_) ?_
  · exact ne_cons (ne_of rfl) (ne_cons (ne_of rfl) (ne_cons (ne_of rfl) (ne_cons (ne_of rfl) ne_nil)))
  · exact ne_map (fun _ => ne_of rfl) _
  · exact ne_cons (ne_of rfl) (ne_cons (ne_of rfl) (ne_cons (ne_of rfl) (ne_cons (ne_of rfl) ne_nil)))
  · exact ne_flatMap (fun g => g.pairs_ne rfl (by decide)) _
  · exact ne_cons (ne_of rfl) ne_nil

theorem SectionType.pairs_once (s : SectionType) : times 331 s.pairs = 1 := by
  unfold SectionType.pairs
  rw [times_append, times_append, times_append, times_append,
    times_zero (ne_map (fun _ => ne_of rfl) _),
    times_zero (ne_flatMap (fun g => Geometry.pairs_ne g rfl (by decide)) _)]
  rfl

/-- Every announced number of an object. -/
theorem object_announced {o : Object} {v : Version} {ps : List CodePair}
    (hv : o.kind.supported v = true) (hp : o.pairs v = .ok ps)
    {c x : Int} {more limit : Nat} (h : (c, x, more, limit) ∈ o.kind.announced v) :
    Announces ps c x more limit := by
  obtain ⟨k, e, y⟩ := o
  change (c, x, more, limit) ∈ k.announced v at h
  cases k <;> try (exact absurd h (List.not_mem_nil))
  case field =>
    have h : (c = 90 ∧ x = 360 ∧ more = 0 ∧ limit = 2 ^ 31) ∨
        (c = 97 ∧ x = (if .r2010 ≤ v then 331 else 330) ∧ more = 0 ∧ limit = 2 ^ 31) ∨
        (c = 93 ∧ x = 6 ∧ more = 0 ∧ limit = 2 ^ 31) := by
      simpa [OName.announced] using h
    rcases h with ⟨rfl, rfl, rfl, rfl⟩ | ⟨rfl, rfl, rfl, rfl⟩ | ⟨rfl, rfl, rfl, rfl⟩
    · refine object_announces hv hp rfl rfl rfl rfl rfl (pre := Obj.fieldCmds.take 5)
        (rest := Obj.fieldCmds.drop 6) rfl (by decide) rfl rfl ?_ (says_i32 _ _)
      exact (times_single rfl).trans (times_many _ _ _)
    · by_cases hg : Version.r2010 ≤ v
      · rw [if_pos hg]
        refine object_announces hv hp rfl rfl rfl rfl rfl (pre := Obj.fieldCmds.take 12)
          (rest := Obj.fieldCmds.drop 13) rfl (by decide) rfl rfl ?_ (says_i32 _ _)
        refine (times_single ?_).trans (times_many _ _ _)
        cases v <;> first | rfl | (exact absurd hg (by decide))
      · rw [if_neg hg]
        refine object_announces hv hp rfl rfl rfl rfl rfl (pre := Obj.fieldCmds.take 12)
          (rest := Obj.fieldCmds.drop 13) rfl (by decide) rfl rfl ?_ (says_i32 _ _)
        refine (times_single ?_).trans (times_many _ _ _)
        cases v <;> first | rfl | (exact absurd (by decide) hg)
    · refine object_announces hv hp rfl rfl rfl rfl rfl (pre := Obj.fieldCmds.take 15)
        (rest := Obj.fieldCmds.drop 16) rfl (by decide) rfl rfl ?_ (says_i32 _ _)
      exact (times_single rfl).trans (times_many _ _ _)
  case geoData =>
    have h : (c = 93 ∧ x = 13 ∧ more = 0 ∧ limit = 2 ^ 31) ∨
        (c = 96 ∧ x = 97 ∧ more = 0 ∧ limit = 2 ^ 31) := by
      simpa [OName.announced] using h
    obtain ⟨a, ha⟩ := object_pairs hv hp rfl
    have hm (l : List (Point × Point)) (x : Int) (h1 : x ≠ 13) (h2 : x ≠ 23) (h3 : x ≠ 14)
        (h4 : x ≠ 24) : ∀ p ∈ l.flatMap fun (s, d) => meshPairs s d, p.code ≠ x :=
      ne_flatMap (fun q => ne_cons h1.symm (ne_cons h2.symm (ne_cons h3.symm (ne_cons h4.symm
        ne_nil)))) l
    have hf (l : List Point) (x : Int) (h1 : x ≠ 97) (h2 : x ≠ 98) (h3 : x ≠ 99) :
        ∀ p ∈ l.flatMap facePairs, p.code ≠ x :=
      ne_flatMap (fun q => ne_cons h1.symm (ne_cons h2.symm (ne_cons h3.symm ne_nil))) l
    rcases h with ⟨rfl, rfl, rfl, rfl⟩ | ⟨rfl, rfl, rfl, rfl⟩
    · refine announces_of (xs := e.xdata) (v := v) (a := a)
        (pre := emitAll Obj.geoDataCmds v e.fields)
        (q := .newI32 93 (BitVec.ofNat 32 y.mesh.length))
        (b := (y.mesh.flatMap fun (s, d) => meshPairs s d) ++
          .newI32 96 (BitVec.ofNat 32 y.faces.length) :: y.faces.flatMap facePairs)
        ha rfl (by decide) ?_ ?_ (says_i32 _ _)
      · exact ne_append (hm _ _ (by decide) (by decide) (by decide) (by decide))
          (ne_cons (ne_of rfl) (hf _ _ (by decide) (by decide) (by decide)))
      · rw [times_append, times_flatMap, times_zero]
        · exact ne_cons (ne_of rfl) (hf _ _ (by decide) (by decide) (by decide))
        · exact fun _ => rfl
    · refine announces_of (xs := e.xdata) (v := v) (a := a)
        (pre := emitAll Obj.geoDataCmds v e.fields ++
          .newI32 93 (BitVec.ofNat 32 y.mesh.length) :: y.mesh.flatMap fun (s, d) => meshPairs s d)
        (q := .newI32 96 (BitVec.ofNat 32 y.faces.length)) (b := y.faces.flatMap facePairs)
        (ha.trans ?_) rfl (by decide) ?_ ?_ (says_i32 _ _)
      · change a ++ (emitAll Obj.geoDataCmds v e.fields ++
          (((CodePair.newI32 93 (BitVec.ofNat 32 y.mesh.length) ::
            (y.mesh.flatMap fun (s, d) => meshPairs s d)) ++
            (CodePair.newI32 96 (BitVec.ofNat 32 y.faces.length) :: y.faces.flatMap facePairs)) ++
            e.xdata.flatMap fun x => x.pairs v)) = _
        simp only [List.append_assoc, List.cons_append]
      · exact hf _ _ (by decide) (by decide) (by decide)
      · exact times_flatMap (fun _ => rfl) _
  case lightList =>
    obtain ⟨rfl, rfl, rfl, rfl⟩ : c = 90 ∧ x = 5 ∧ more = 0 ∧ limit = 2 ^ 31 := by
      simpa [OName.announced] using h
    obtain ⟨a, ha⟩ := object_pairs hv hp rfl
    refine announces_of (xs := e.xdata) (v := v) ha rfl (by decide) ?_ ?_ (says_i32 _ _)
    · exact ne_flatMap (fun q => ne_cons (ne_of rfl) (ne_cons (ne_of rfl) ne_nil)) _
    · exact times_flatMap (fun _ => rfl) _
  case mLineStyle =>
    obtain ⟨rfl, rfl, rfl, rfl⟩ : c = 71 ∧ x = 49 ∧ more = 0 ∧ limit = 2 ^ 15 := by
      simpa [OName.announced] using h
    obtain ⟨a, ha⟩ := object_pairs hv hp rfl
    refine announces_of (xs := e.xdata) (v := v) ha rfl (by decide) ?_ ?_ (says_i16 _ _)
    · exact ne_flatMap (fun q => ne_cons (ne_of rfl) (ne_cons (ne_of rfl) (ne_cons (ne_of rfl)
        ne_nil))) _
    · exact times_flatMap (fun _ => rfl) _
  case sectionManager =>
    obtain ⟨rfl, rfl, rfl, rfl⟩ : c = 90 ∧ x = 330 ∧ more = 0 ∧ limit = 2 ^ 31 := by
      simpa [OName.announced] using h
    refine object_announces hv hp rfl rfl rfl rfl rfl (pre := Obj.sectionManagerCmds.take 2)
      (rest := Obj.sectionManagerCmds.drop 3) rfl (by decide) rfl rfl ?_ (says_i32 _ _)
    exact (times_single rfl).trans (times_many _ _ _)
  case sectionSettings =>
    obtain ⟨rfl, rfl, rfl, rfl⟩ : c = 91 ∧ x = 331 ∧ more = 0 ∧ limit = 2 ^ 31 := by
      simpa [OName.announced] using h
    obtain ⟨a, ha⟩ := object_pairs hv hp rfl
    refine announces_of (xs := e.xdata) (v := v) ha rfl (by decide) ?_ ?_ (says_i32 _ _)
    · exact ne_flatMap (fun q => q.pairs_ne) _
    · exact times_flatMap (fun q => q.pairs_once) _
  case spatialFilter =>
    obtain ⟨rfl, rfl, rfl, rfl⟩ : c = 70 ∧ x = 10 ∧ more = 0 ∧ limit = 2 ^ 15 := by
      simpa [OName.announced] using h
    obtain ⟨a, ha⟩ := object_pairs hv hp rfl
    refine announces_of (xs := e.xdata) (v := v) (a := a)
      (pre := emitAll Obj.spatialFilterCmds v e.fields)
      (q := .newI16 70 (BitVec.ofNat 16 y.points.length))
      (b := (y.points.flatMap fun p => [.newF64 10 p.x, .newF64 20 p.y, .newF64 30 p.z]) ++
        (emitAll Obj.spatialFilterCmds2 v e.fields ++
          (y.inverse.values4x3 ++ y.transform.values4x3).map fun f => .newF64 40 f))
      (ha.trans ?_) rfl (by decide) ?_ ?_ (says_i16 _ _)
    · rw [List.append_assoc, List.append_assoc]
      rfl
    · exact ne_append (ne_flatMap (fun q => ne_cons (ne_of rfl) (ne_cons (ne_of rfl) (ne_cons (ne_of rfl) ne_nil))) _) (ne_append (emitAll_ne rfl) (ne_map (fun _ => ne_of rfl) _))
    · exact times_head (times_flatMap (fun _ => rfl) _) (ne_append (emitAll_ne rfl)
        (ne_map (fun _ => ne_of rfl) _))
  case sunStudy =>
    have h : (c = 91 ∧ x = 90 ∧ more = 0 ∧ limit = 2 ^ 31) ∨
        (c = 73 ∧ x = 290 ∧ more = 0 ∧ limit = 2 ^ 15) := by
      simpa [OName.announced] using h
    obtain ⟨a, ha⟩ := object_pairs hv hp rfl
    have hh (l : List I32) (x : Int) (h1 : x ≠ 290) :
        ∀ p ∈ l.map fun h => CodePair.newI16 290 (h.setWidth 16), p.code ≠ x :=
      ne_map (fun _ => h1.symm) l
    rcases h with ⟨rfl, rfl, rfl, rfl⟩ | ⟨rfl, rfl, rfl, rfl⟩
    · refine announces_of (xs := e.xdata) (v := v) (a := a)
        (pre := emitAll Obj.sunStudyCmds v e.fields)
        (q := .newI32 91 (BitVec.ofNat 32 y.dates.length))
        (b := (y.dates.map fun d => CodePair.newI32 90 (BitVec.ofInt 32
            (d.asDouble.toIntSat (-2 ^ 31) (2 ^ 31 - 1)))) ++
          (emitAll Obj.sunStudyCmds2 v e.fields ++ (OName.sunStudy.mid2 y ++
            emitAll Obj.sunStudyCmds3 v e.fields)))
        (ha.trans ?_) rfl (by decide) ?_ ?_ (says_i32 _ _)
      · rw [List.append_assoc, List.append_assoc, List.append_assoc]
        rfl
      · exact ne_append (ne_map (fun _ => ne_of rfl) _) (ne_append (emitAll_ne rfl)
          (ne_append (ne_cons (ne_of rfl) (hh _ _ (by decide))) (emitAll_ne rfl)))
      · exact times_head (times_map (by intro _; rfl) _) (ne_append (emitAll_ne rfl)
          (ne_append (ne_cons (ne_of rfl) (hh _ _ (by decide))) (emitAll_ne rfl)))
    · refine announces_of (xs := e.xdata) (v := v) (a := a)
        (pre := emitAll Obj.sunStudyCmds v e.fields ++ (OName.sunStudy.mid y ++
          emitAll Obj.sunStudyCmds2 v e.fields))
        (q := .newI16 73 (BitVec.ofNat 16 y.hours.length))
        (b := (y.hours.map fun h => .newI16 290 (h.setWidth 16)) ++
          emitAll Obj.sunStudyCmds3 v e.fields)
        (ha.trans ?_) rfl (by decide) ?_ ?_ (says_i16 _ _)
      · simp only [List.append_assoc]
        rfl
      · exact ne_append (hh _ _ (by decide)) (emitAll_ne rfl)
      · exact times_head (times_map (by intro _; rfl) _) (emitAll_ne rfl)

end Dxf
