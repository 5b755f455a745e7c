import Verif.Spec.Upgrade
import Verif.Lemmas.AssembleFile
import Verif.Lemmas.Steady
import Verif.Props.Small

/-! Fields that are written stay written in newer versions (C64). -/

namespace Dxf

variable {ds : List Decl}

/-- What is written of the field in one version is written in the later ones up to `u`. -/
def Carried (stmts : List (GCmd ds)) (u : Version) (i : Nat) : Prop :=
  ∀ v w, v ≤ w → w ≤ u → ∀ r, Written stmts v r i → Written stmts w r i

/-- The statement is for one of the special fields, or not cut off before the last version. -/
def uncut (u : Nat → Version) (special : List Nat) (g : GCmd ds) : Bool :=
  match g.cmd with
  | .field i _ => special.contains i || (match g.max with
    | none => true
    | some m => decide (u i ≤ m))
  | _ => true

theorem gate_later {g : GCmd ds} {v w : Version} (hvw : v ≤ w) (hm : ∀ m, g.max = some m → w ≤ m)
    (h : versionGate g.min g.max v = true) : versionGate g.min g.max w = true := by
  unfold versionGate at *
  rw [Bool.and_eq_true] at *
  refine ⟨?_, ?_⟩
  · cases hmin : g.min with
    | none => rfl
    | some m =>
      rw [hmin] at h
      exact decide_eq_true (Nat.le_trans (of_decide_eq_true h.1) hvw)
  · cases hmax : g.max with
    | none => rfl
    | some m => exact decide_eq_true (hm m hmax)

theorem carried {stmts : List (GCmd ds)} {u : Nat → Version} {special : List Nat}
    (h : (stmts.all fun g => uncut u special g) = true) {i : Nat} (hi : i ∉ special) :
    Carried stmts (u i) i := by
  intro v w hvw hwu r ⟨g, hg, hw, hh⟩
  refine ⟨g, hg, hw, ?_⟩
  have := List.all_eq_true.mp h g hg
  unfold uncut at this
  unfold GCmd.writes at hw
  split at this
  · rename_i j wr hc
    rw [hc] at hw
    have e : j = i := beq_iff_eq.mp hw
    subst e
    unfold GCmd.holds at hh ⊢
    rw [Bool.and_eq_true] at hh ⊢
    refine ⟨gate_later hvw (fun m hm => ?_) hh.1, hh.2⟩
    rw [hm] at this
    rcases Bool.or_eq_true_iff.mp this with h' | h'
    · exact absurd (List.contains_iff_mem.mp h') hi
    · exact Nat.le_trans hwu (of_decide_eq_true h')
  · rename_i hc
    split at hw
    · rename_i j wr hc'
      exact absurd hc' (hc j wr)
    · cases hw

/-- Two statements that take turns. -/
theorem carried_turns {stmts : List (GCmd ds)} {u : Version} {i : Nat} {g : GCmd ds}
    (hg : g ∈ stmts) (hw : g.writes i = true) (hc : ∀ r, g.cond r = true)
    (h : ∀ g' ∈ stmts, g'.writes i = true → ∀ v w : Version, v ≤ w →
      versionGate g'.min g'.max v = true → versionGate g'.min g'.max w = true ∨
        versionGate g.min g.max w = true) : Carried stmts u i := by
  intro v w hvw _ r ⟨g', hg', hw', hh⟩
  unfold GCmd.holds at hh
  rw [Bool.and_eq_true] at hh
  rcases h g' hg' hw' v w hvw hh.1 with h1 | h1
  · exact ⟨g', hg', hw', by unfold GCmd.holds; rw [h1, hh.2]; rfl⟩
  · exact ⟨g, hg, hw, by unfold GCmd.holds; rw [h1, hc r]; rfl⟩

/-- The statements for the field take turns with the one whose bounds are given. -/
def turnsOk (stmts : List (GCmd ds)) (i : Nat) (mn mx : Option Version) : Bool :=
  stmts.all fun g => !g.writes i || Version.all.all fun v => Version.all.all fun w =>
    !decide (v ≤ w) || !versionGate g.min g.max v || versionGate g.min g.max w || versionGate mn mx w

theorem carried_at {stmts : List (GCmd ds)} {u : Version} {i : Nat} (n : Nat) {g : GCmd ds}
    (hg : stmts[n]? = some g) (hw : g.writes i = true) (hc : ∀ r, g.cond r = true)
    (h : turnsOk stmts i g.min g.max = true) : Carried stmts u i := by
  refine carried_turns (List.mem_of_getElem? hg) hw hc fun g' hg' hw' v w hvw hv => ?_
  have h1 := List.all_eq_true.mp h g' hg'
  rw [hw', Bool.not_true, Bool.false_or] at h1
  have h2 := List.all_eq_true.mp (List.all_eq_true.mp h1 v (mem_all v)) w (mem_all w)
  rw [hv, decide_eq_true hvw] at h2
  simpa using h2

/-- What outlives the change of version. -/
theorem Carried.outlives {stmts : List (GCmd ds)} {u : Version} {i : Nat} (h : Carried stmts u i)
    {v w : Version} (hvw : v ≤ w) (hwu : w ≤ u) {a b c : Rec ds} {x : (tyAt ds i).den}
    (hb : b i = if Written stmts v a i then a i else x)
    (hc : c i = if Written stmts w a i then a i else x) (hk : b i = a i) : c i = a i := by
  rw [hc]
  split
  · rfl
  · rename_i hn
    rw [if_neg fun hw => hn (h v w hvw hwu a hw)] at hb
    exact hb.symm.trans hk

/-! ### The tables -/

def EName.turns : EName → List Nat
  | .lwPolyline => [5, 21]
  | _ => []

theorem uncut_entity (k : EName) (n : Nat) (wh : Bool) :
    ((k.statements n wh).all fun g => uncut k.until k.turns g) = true := by
  unfold EName.statements
  cases k
  case dimension =>
    rcases n with _ | _ | _ | _ | _ | _ | n <;> cases wh <;> rfl
  case insert =>
    rcases n with _ | n <;> cases wh <;> rfl
  all_goals cases wh <;> rfl

theorem uncut_block (wh : Bool) :
    ((Blocks.kind.all wh).all fun g => uncut (fun _ => .r2018) [] g) = true := by
  cases wh <;> rfl

def TName.turns : TName → List Nat
  | .dimStyle => [5, 6]
  | .viewPort => [11]
  | _ => []

theorem uncut_table (t : TName) (wh : Bool) :
    ((t.kind.all wh).all fun g => uncut t.until t.turns g) = true := by
  cases t <;> cases wh <;> rfl

def OName.turns : OName → List Nat
  | .field => [5, 15]
  | _ => []

theorem uncut_object (k : OName) : (k.statements.all fun g => uncut k.until k.turns g) = true := by
  cases k <;> rfl

theorem uncut_header : (Header.known.all fun g => uncut Header.until [200, 224] g) = true := by
  decide +kernel

theorem carried_entity (k : EName) (n : Nat) (wh : Bool) (i : Nat) :
    Carried (k.statements n wh) (k.until i) i := by
  by_cases h : i ∈ k.turns
  · unfold EName.turns at h
    split at h
    · simp only [List.mem_cons, List.not_mem_nil, or_false] at h
      rcases h with rfl | rfl
      · intro v w _ _ r ⟨g, hg, hw, hh⟩
        have hm : g ∈ (EName.lwPolyline.statements n wh).filter fun g => g.writes 5 :=
          List.mem_filter.mpr ⟨hg, hw⟩
        let lift (c : Rec EName.lwPolyline.decls → Bool) (mx : Option Version) :
            GCmd EName.lwPolyline.decls := ⟨.field 5 (.one 38 .f64), none, mx, c⟩
        let nz : Rec EName.lwPolyline.decls → Bool := fun r => !Ty.f64.rustEq (r 5) ⟨0⟩
        have hm' : g ∈ [lift nz (some .r12), lift nz none] := by
          cases wh <;> exact hm
        have hn : lift nz none ∈ EName.lwPolyline.statements n wh :=
          List.mem_of_getElem? (i := 23) (by cases wh <;> rfl)
        have hnz : nz r = true := by
          unfold GCmd.holds at hh
          rw [Bool.and_eq_true] at hh
          rcases List.mem_cons.mp hm' with rfl | hm'
          · exact hh.2
          · cases List.mem_singleton.mp hm'
            exact hh.2
        exact ⟨_, hn, rfl, by unfold GCmd.holds; exact hnz⟩
      · cases wh <;> exact carried_at 25 rfl rfl (fun _ => rfl) rfl
    · cases h
  · exact carried (uncut_entity k n wh) h

theorem carried_block (wh : Bool) (i : Nat) : Carried (Blocks.kind.all wh) .r2018 i :=
  carried (uncut_block wh) List.not_mem_nil

theorem carried_table (t : TName) (wh : Bool) (i : Nat) :
    Carried (t.kind.all wh) (t.until i) i := by
  by_cases h : i ∈ t.turns
  · unfold TName.turns at h
    split at h
    · simp only [List.mem_cons, List.not_mem_nil, or_false] at h
      rcases h with rfl | rfl
      · cases wh <;> exact carried_at 69 rfl rfl (fun _ => rfl) rfl
      · cases wh <;> exact carried_at 70 rfl rfl (fun _ => rfl) rfl
    · rw [List.mem_singleton.mp h]
      cases wh <;> exact carried_at 18 rfl rfl (fun _ => rfl) rfl
    · cases h
  · exact carried (uncut_table t wh) h

theorem carried_object (k : OName) (i : Nat) : Carried k.statements (k.until i) i := by
  by_cases h : i ∈ k.turns
  · unfold OName.turns at h
    split at h
    · simp only [List.mem_cons, List.not_mem_nil, or_false] at h
      rcases h with rfl | rfl
      · exact carried_at 21 rfl rfl (fun _ => rfl) rfl
      · exact carried_at 16 rfl rfl (fun _ => rfl) rfl
    · cases h
  · exact carried (uncut_object k) h

theorem turns_of {stmts : List (GCmd ds)} {u : Version} {i : Nat} {g : GCmd ds} (hg : g ∈ stmts)
    (hw : g.writes i = true) (hc : ∀ r, g.cond r = true) (h : turnsOk stmts i g.min g.max = true) :
    Carried stmts u i := by
  obtain ⟨n, hn⟩ := List.getElem?_of_mem hg
  exact carried_at n hn hw hc h

theorem header_turn {n : Nat} {h : HCmd Header.decls} (hg : Header.cmds[n]? = some h)
    (hf : (findVar Header.vars h.name).isSome = true) : h.g ∈ Header.known :=
  List.mem_map.mpr ⟨h, List.mem_filter.mpr ⟨List.mem_of_getElem? hg, hf⟩, rfl⟩

theorem carried_header (i : Nat) : Carried Header.known (Header.until i) i := by
  by_cases h : i ∈ [200, 224]
  · simp only [List.mem_cons, List.not_mem_nil, or_false] at h
    rcases h with rfl | rfl
    · exact turns_of (header_turn (n := 204) rfl (by decide +kernel)) rfl (fun _ => rfl)
        (by decide +kernel)
    · exact turns_of (header_turn (n := 229) rfl (by decide +kernel)) rfl (fun _ => rfl)
        (by decide +kernel)
  · exact carried uncut_header h

/-! ### Items -/

theorem ext_outlives {v w : Version} (hvw : v ≤ w) {a b c : List ExtGroup}
    (hb : b = if .r14 ≤ v then ExtGroup.kept a else []) (hc : c = if .r14 ≤ w then ExtGroup.kept a else [])
    (h : b = a) : c = a := by
  by_cases h1 : Version.r14 ≤ v
  · rw [if_pos h1] at hb
    rw [hc, if_pos (show Version.r14 ≤ w from Nat.le_trans h1 hvw), ← hb, h]
  · rw [if_neg h1] at hb
    obtain rfl : a = [] := h.symm.trans hb
    rw [hc]
    split <;> rfl

theorem xdata_outlives {v w : Version} (hvw : v ≤ w) {a b c : List XData}
    (hb : b = if .r2000 ≤ v then a else []) (hc : c = if .r2000 ≤ w then a else []) (h : b = a) :
    c = a := by
  by_cases h1 : Version.r2000 ≤ v
  · rw [hc, if_pos (show Version.r2000 ≤ w from Nat.le_trans h1 hvw)]
  · rw [if_neg h1] at hb
    obtain rfl : a = [] := h.symm.trans hb
    rw [hc]
    split <;> rfl

theorem supported_entity (k : EName) {v w : Version} (hvw : v ≤ w) (hw : w ≤ k.ends)
    (h : k.supported v = true) : k.supported w = true := by
  have hm : k.kind.max = none ∨ k.kind.max = some k.ends := by
    cases k <;> first | exact .inl rfl | exact .inr rfl
  unfold EName.supported at *
  rw [Bool.and_eq_true] at *
  refine ⟨?_, by rcases hm with hm | hm <;> rw [hm]; exact decide_eq_true hw⟩
  split
  · rename_i m hm'
    rw [hm'] at h
    exact decide_eq_true (Nat.le_trans (of_decide_eq_true h.1) hvw)
  · rfl

theorem supported_object (k : OName) {v w : Version} (hvw : v ≤ w) (h : k.supported v = true) :
    k.supported w = true := by
  have hm : k.kind.max = none := by cases k <;> rfl
  unfold OName.supported at *
  rw [hm] at *
  rw [Bool.and_eq_true] at *
  refine ⟨?_, rfl⟩
  split
  · rename_i m hm'
    rw [hm'] at h
    exact decide_eq_true (Nat.le_trans (of_decide_eq_true h.1) hvw)
  · rfl

theorem DrawingItem.Filed.later {v w : Version} (hvw : v ≤ w) : {x : DrawingItem} → w ≤ x.ends →
    x.Filed v → x.Filed w
  | .table _ _, _, h => fun e => Nat.le_trans (h e) hvw
  | .block _, _, h => Nat.le_trans h hvw
  | .entity e, hw, h => supported_entity e.kind hvw hw h
  | .object o, _, h => ⟨Nat.le_trans h.1 hvw, supported_object o.kind hvw h.2⟩

theorem table_outlives {t : TName} {v w : Version} (hvw : v ≤ w) {a b c : t.Item}
    (hb : t.Restored v true a b) (hc : t.Restored w true a c) :
    (∀ i, w ≤ t.until i → (t = .layer → i ≠ 3 ∧ i ≠ 9) → Representable (t.kind.all true) v a.fields i →
      Representable (t.kind.all true) w a.fields i → b.fields i = a.fields i →
      c.fields i = a.fields i) ∧
    (b.ext = a.ext → c.ext = a.ext) ∧ (b.xdata = a.xdata → c.xdata = a.xdata) := by
  have key : ∀ skip, Dxf.Restored t.kind v true skip a b → Dxf.Restored t.kind w true skip a c →
      (∀ i, w ≤ t.until i → (t = .layer → i ≠ 3 ∧ i ≠ 9) → i ∉ skip →
        Representable (t.kind.all true) v a.fields i →
        Representable (t.kind.all true) w a.fields i → b.fields i = a.fields i →
        c.fields i = a.fields i) ∧
      (b.ext = a.ext → c.ext = a.ext) ∧ (b.xdata = a.xdata → c.xdata = a.xdata) := by
    intro skip hb hc
    exact ⟨fun i hi _ hs h1 h2 => (carried_table t true i).outlives hvw hi (hb.1 i hs h1) (hc.1 i hs h2),
      ext_outlives hvw hb.2.1 hc.2.1, xdata_outlives hvw hb.2.2 hc.2.2⟩
  have other : ∀ hb : Dxf.Restored t.kind v true [] a b, ∀ hc : Dxf.Restored t.kind w true [] a c, _ :=
    fun hb hc => And.imp_left (fun h i hi hl => h i hi hl List.not_mem_nil) (key [] hb hc)
  cases t
  case layer =>
    refine And.imp_left (fun h i hi hl => h i hi hl ?_) (key [3, 9] hb.1 hc.1)
    have := hl rfl
    simp only [List.mem_cons, List.not_mem_nil, or_false]
    exact fun h => h.elim this.1 this.2
  all_goals exact other hb hc

theorem extra_outlives {v w : Version} {wh wh' : Bool} (f : Flat) {x y z : Extra}
    (hy : Extra.Restored v wh f x y) (hz : Extra.Restored w wh' f x z) :
    y.atts.length = z.atts.length ∧ y.verts.length = z.verts.length := by
  obtain ⟨k, n, e⟩ := f
  have hd : y = Extra.dflt → z = Extra.dflt →
      y.atts.length = z.atts.length ∧ y.verts.length = z.verts.length := by
    rintro rfl rfl
    exact ⟨rfl, rfl⟩
  cases k
  case «attribute» =>
    obtain ⟨m, -, rfl⟩ := hy
    obtain ⟨m', -, rfl⟩ := hz
    exact ⟨rfl, rfl⟩
  case attributeDefinition =>
    obtain ⟨m, -, rfl⟩ := hy
    obtain ⟨m', -, rfl⟩ := hz
    exact ⟨rfl, rfl⟩
  case insert =>
    obtain ⟨m, h, rfl⟩ := hy
    obtain ⟨m', h', rfl⟩ := hz
    exact ⟨h.length_eq.symm.trans h'.length_eq, rfl⟩
  case polyline =>
    obtain ⟨m, h, rfl⟩ := hy
    obtain ⟨m', h', rfl⟩ := hz
    exact ⟨rfl, h.length_eq.symm.trans h'.length_eq⟩
  all_goals exact hd hy hz

theorem block_entities {b c : Block} {v w : Version} (hvw : v ≤ w) {a : Block}
    (hb : a.Restored v true b) (hc : a.Restored w true c) (he : ∀ e ∈ a.entities, w ≤ e.kind.ends) :
    b.entities.length ≤ c.entities.length := by
  rw [← hb.2.length_eq, ← hc.2.length_eq, ← List.countP_eq_length_filter,
    ← List.countP_eq_length_filter]
  exact List.countP_mono_left fun e hm => supported_entity e.kind hvw (he e hm)

theorem item_outlives {v w : Version} (hvw : v ≤ w) : {x y z : DrawingItem} → x.Restored v y →
    x.Restored w z → x.Outlives v w y z
  | .table t a, _, _, ⟨b, e, hb⟩, ⟨c, e', hc⟩ => ⟨b, c, e, e', table_outlives hvw hb hc⟩
  | .block a, _, _, ⟨b, es, e, hb, hes⟩, ⟨c, es', e', hc, hes'⟩ => ⟨_, _, e, e',
      fun i h1 h2 => (carried_block true i).outlives hvw (by cases w <;> decide)
        (hb.1.1 i List.not_mem_nil h1) (hc.1.1 i List.not_mem_nil h2),
      ext_outlives hvw hb.1.2.1 hc.1.2.1, fun he => by
        change es.length ≤ es'.length
        rw [← hes.length_eq, ← hes'.length_eq]
        exact block_entities hvw hb hc he⟩
  | .entity ⟨⟨k, n, a⟩, x⟩, _, _, ⟨_, e, b, hb, x', hx', eb⟩, ⟨_, e', c, hc, x'', hx'', ec⟩ =>
    ⟨b, c, x', x'', by rw [e, eb], by rw [e', ec], fun i hi h1 h2 h3 h4 h5 => by
        by_cases hp : i ∈ k.packed
        · exact hc.2.1 i hp
        · exact (carried_entity k _ true i).outlives hvw hi (hb.1 i h1 hp h3) (hc.1 i h2 hp h4) h5,
      ext_outlives hvw hb.2.2.1 hc.2.2.1, extra_outlives _ hx' hx''⟩
  | .object ⟨k, a, x⟩, _, _, ⟨_, e, b, hb, eb⟩, ⟨_, e', c, hc, ec⟩ =>
    ⟨b, c, k.listsBack x, by rw [e, eb], by rw [e', ec], fun i hi h1 h2 h3 h4 h5 =>
        (carried_object k i).outlives hvw hi (hb.1 i h1 h3) (hc.1 i h2 h4) h5,
      ext_outlives hvw hb.2.1 hc.2.1, xdata_outlives hvw hb.2.2 hc.2.2⟩

/-! ### The header -/

theorem steady_cond {g : GCmd Header.decls} (h : Steady [] g) {i : Nat} (hw : g.writes i = true)
    {r r' : Header} (e : r i = r' i) : g.cond r = g.cond r' ∨
      (∀ r r', g.cond r = g.cond r') := by
  unfold GCmd.writes at hw
  unfold Steady at h
  split at hw
  · rename_i j w hc
    rw [hc] at h
    obtain rfl : j = i := beq_iff_eq.mp hw
    rcases h.1 with h | h
    · exact .inl (h r r' e)
    · exact .inr fun r r' => h.2 r r' (by simp)
  · cases hw

theorem header_holds {g : GCmd Header.decls} (hg : g ∈ Header.known) {i : Nat}
    (hw : g.writes i = true) {r r' : Header} (e : r i = r' i) (v : Version) :
    g.holds v r = g.holds v r' := by
  unfold GCmd.holds
  rcases steady_cond (steady_header g hg).1 hw e with h | h
  · rw [h]
  · rw [h r r']

theorem header_written {v : Version} {r r' : Header} {i : Nat} (e : r i = r' i)
    (h : Written Header.known v r i) : Written Header.known v r' i := by
  obtain ⟨g, hg, hw, hh⟩ := h
  exact ⟨g, hg, hw, header_holds hg hw e v ▸ hh⟩

theorem header_representable {v : Version} {r r' : Header} {i : Nat} (e : r i = r' i)
    (h : Representable Header.known v r i) : Representable Header.known v r' i := by
  intro g hg hh w hc
  rw [← e]
  refine h g hg ?_ w hc
  rw [header_holds hg (by unfold GCmd.writes; rw [hc]; exact beq_self_eq_true i) e]
  exact hh

theorem class_outlives {v w : Version} (hvw : v ≤ w) (x : Class) :
    Class.Outlives w x (Class.visible v x) (Class.visible w x) := by
  have h1 : Version.r2004 ≤ v → Version.r2004 ≤ w := fun h => Nat.le_trans h hvw
  have h2 : Version.r14 ≤ v → Version.r14 ≤ w := fun h => Nat.le_trans h hvw
  have h3 : Version.r2004 ≤ v → Version.r14 ≤ v := fun h => Nat.le_trans (by decide) h
  have h4 : Version.r2004 ≤ w → Version.r14 ≤ w := fun h => Nat.le_trans (by decide) h
  have h5 : w ≤ Version.r13 → ¬ Version.r14 ≤ w := fun h h' => absurd (Nat.le_trans h' h) (by decide)
  unfold Class.Outlives Class.visible
  by_cases a : Version.r2004 ≤ v
  · simp [a, h1 a]
  · by_cases b : Version.r14 ≤ v
    · by_cases c : Version.r2004 ≤ w
      · simp [a, b, c]
      · simp [a, b, c, h2 b]
    · by_cases c : Version.r2004 ≤ w
      · simp [a, b, c, h4 c]
        exact fun h => absurd (h4 c) (h5 h)
      · by_cases e : Version.r14 ≤ w
        · simp [a, b, c, e]
          exact fun h => absurd e (h5 h)
        · simp [a, b, c, e]

theorem header_outlives {v w : Version} (hvw : v ≤ w) {r r' b c h0 : Header} {i : Nat}
    (hw : w ≤ Header.until i) (e : r i = r' i)
    (hb : b i = if Written Header.known v r i then r i else h0 i)
    (hc : c i = if Written Header.known w r' i then r' i else h0 i) (hk : b i = r i) :
    c i = r i := by
  refine (carried_header i).outlives hvw hw hb ?_ hk
  rw [hc, e]
  have : Written Header.known w r' i ↔ Written Header.known w r i :=
    ⟨header_written e.symm, header_written e⟩
  simp only [this]

/-! ### The elevation -/

theorem elevation_statements (k : EName) (hk : k ≠ .lwPolyline) (n : Nat) (wh : Bool) :
    ((k.statements n wh).all fun g => !g.writes 5 || g.max == some .r12) = true := by
  unfold EName.statements
  cases k
  case lwPolyline => exact absurd rfl hk
  case dimension =>
    rcases n with _ | _ | _ | _ | _ | _ | n <;> cases wh <;> rfl
  case insert =>
    rcases n with _ | n <;> cases wh <;> rfl
  all_goals cases wh <;> rfl

theorem elevation_kept (k : EName) (v : Version) : 5 ∉ k.lost v ∧ 5 ∉ k.packed := by
  cases k <;> cases v <;> decide

/-- From R13 on, the elevation is the default one. -/
theorem elevation_dropped {k : EName} (hk : k ≠ .lwPolyline) {n : Nat} {w : Version} (hw : .r13 ≤ w)
    {wh : Bool} {a b : Entry k.decls} (h : k.Restored n w wh a b) :
    b.fields 5 = Rec.dflt k.decls 5 := by
  have hno : ∀ g ∈ k.statements n wh, g.writes 5 = true → g.holds w a.fields = true → False := by
    intro g hg hwr hh
    have := List.all_eq_true.mp (elevation_statements k hk n wh) g hg
    rw [hwr] at this
    have hm : g.max = some .r12 := beq_iff_eq.mp this
    unfold GCmd.holds versionGate at hh
    rw [hm] at hh
    simp only [Bool.and_eq_true, decide_eq_true_eq] at hh
    exact absurd (Nat.le_trans hw hh.1.2) (by decide)
  have := h.1 5 (elevation_kept k w).1 (elevation_kept k w).2 fun g hg hh x hc => (hno g hg (by
    unfold GCmd.writes
    rw [hc]
    exact beq_self_eq_true 5) hh).elim
  rw [if_neg (fun ⟨g, hg, hw, hh⟩ => hno g hg hw hh)] at this
  exact this

end Dxf
