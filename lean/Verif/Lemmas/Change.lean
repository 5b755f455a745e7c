import Verif.Spec.Change
import Verif.Lemmas.Steady
import Verif.Lemmas.DrawingLookup

/-! Files of drawings that differ in one place (C72). -/

namespace Dxf

variable {Img : Type}

open Drawing

/-- Whatever is saved in the same way on both sides. -/
theorem Localized.of {α β D : Type} {P : α → Prop} {save : D → Except DxfErr (List β)} {g : α → D}
    {f : α → List β}
    (h : ∀ x ps, P x → save (g x) = .ok ps → ∃ before behind, ∀ y, P y →
      save (g y) = .ok (before ++ f y ++ behind)) :
    Localized P save g fun y => .ok (f y) := h

/-- Further processing of the parts. -/
theorem Localized.then {α β γ D : Type} {P : α → Prop} {save : D → Except DxfErr (List β)} {g : α → D}
    {f : α → Except DxfErr (List β)} (h : Localized P save g f) (pre : List γ) (t : β → List γ) :
    Localized P (fun d => (save d).map fun ps => pre ++ ps.flatMap t) g
      fun x => (f x).map fun ps => ps.flatMap t := by
  intro x ps hx hs
  cases hc : save (g x) with
  | error => simp [hc, Except.map] at hs
  | ok qs =>
    obtain ⟨a, b, h⟩ := h x qs hx hc
    refine ⟨pre ++ a.flatMap t, b.flatMap t, fun y hy => ?_⟩
    simp only [h y hy]
    cases f y with
    | error => rfl
    | ok q => simp [Except.map]

/-! ### The header -/

/-- The statement writes the field in that version. -/
def HCmd.active (i : Nat) (v : Version) (c : HCmd Header.decls) : Bool :=
  c.g.writes i && versionGate c.g.min c.g.max v

/-- Two statements do not write the same field in the same version. -/
def HCmd.apart (c c' : HCmd Header.decls) : Bool :=
  match c.g.cmd, c'.g.cmd with
  | .field i _, .field j _ => decide (i ≠ j) || decide (i ∈ [45, 46]) ||
    Version.all.all fun v => !(versionGate c.g.min c.g.max v && versionGate c'.g.min c'.g.max v)
  | _, _ => true

theorem header_apart_cmds : Header.cmds.Pairwise fun c c' => c.apart c' = true := by decide +kernel

theorem header_fields : ∀ c ∈ Header.cmds, ∃ i w, c.g.cmd = .field i w := by
  have h : (Header.cmds.all fun c => match c.g.cmd with | .field _ _ => true | _ => false) = true := by
    decide +kernel
  intro c hc
  have := List.all_eq_true.mp h c hc
  cases hx : c.g.cmd with
  | field i w => exact ⟨i, w, rfl⟩
  | const p => simp [hx] at this
  | computed => simp [hx] at this

theorem writes_field {ds : List Decl} {g : GCmd ds} {i : Nat} (h : g.writes i = true) :
    ∃ w, g.cmd = .field i w := by
  unfold GCmd.writes at h
  split at h
  · rename_i j w hc
    have : j = i := by simpa using h
    subst this
    exact ⟨w, hc⟩
  · cases h

/-- Whether a variable is written depends on its value only. -/
theorem header_own {c : HCmd Header.decls} (hc : c ∈ Header.cmds) {i : Nat}
    (hw : c.g.writes i = true) {r r' : Header} (h : r i = r' i) : c.g.cond r = c.g.cond r' := by
  have key : ∀ k, ∀ x : HCmd Header.decls,
      (Header.cmds.filter fun c => c.g.writes k) = [x] →
      (∀ r r' : Header, r k = r' k → x.g.cond r = x.g.cond r') → c.g.writes k = true →
      c.g.cond r = c.g.cond r' := by
    intro k x hf hx hk
    have hm := List.mem_filter (p := fun c : HCmd Header.decls => c.g.writes k).mpr ⟨hc, hk⟩
    rw [hf, List.mem_singleton] at hm
    subst hm
    obtain ⟨w, h1⟩ := writes_field hw
    obtain ⟨w', h2⟩ := writes_field hk
    have : i = k := by
      rw [h1] at h2
      cases h2
      rfl
    subst this
    exact hx r r' h
  by_cases h5 : ([28, 213, 252, 259, 260].any fun k => c.g.writes k) = true
  · simp only [List.any_cons, List.any_nil, Bool.or_false, Bool.or_eq_true] at h5
    rcases h5 with h5 | h5 | h5 | h5 | h5
    · exact key 28 _ header_handles.1.choose_spec
        (fun r r' h => congrArg (fun x => !(Ty.rustEq _ x _)) h) h5
    · exact key 213 _ header_handles.2.1.choose_spec
        (fun r r' h => congrArg (fun x => !(Ty.rustEq _ x _)) h) h5
    · exact key 252 _ header_handles.2.2.1.choose_spec
        (fun r r' h => congrArg (fun x => !(Ty.rustEq _ x _)) h) h5
    · exact key 259 _ header_handles.2.2.2.1.choose_spec
        (fun r r' h => congrArg (fun x => !(Ty.rustEq _ x _)) h) h5
    · exact key 260 _ header_handles.2.2.2.2.choose_spec
        (fun r r' h => congrArg (fun x => !(Ty.rustEq _ x _)) h) h5
  · have ha : ∀ r, c.g.cond r = true := fun r => by
      have := header_conds r c hc
      rw [Bool.eq_false_iff.mpr h5, Bool.false_or] at this
      exact this
    rw [ha, ha]

/-- What is written for a variable depends on its value only. -/
theorem header_emit {c : HCmd Header.decls} (hc : c ∈ Header.cmds) {i : Nat}
    (hw : c.g.writes i = true) {r r' : Header} (h : r i = r' i) (v : Version) :
    c.emit v r = c.emit v r' := by
  obtain ⟨w, hf⟩ := writes_field hw
  rw [HCmd.emit, HCmd.emit, GCmd.holds, GCmd.holds, header_own hc hw h, hf, Cmd.emit, Cmd.emit, h]

theorem header_silent {c : HCmd Header.decls} (hc : c ∈ Header.cmds) {i : Nat} {v : Version}
    (ha : c.active i v = false) (r : Header) (x : (tyAt Header.decls i).den) :
    c.emit v (r.set i x) = c.emit v r := by
  obtain ⟨j, w, hf⟩ := header_fields c hc
  have hw : c.g.writes j = true := by simp [GCmd.writes, hf]
  by_cases hj : j = i
  · subst hj
    have hg : versionGate c.g.min c.g.max v = false := by
      simpa [HCmd.active, hw] using ha
    rw [HCmd.emit, HCmd.emit, GCmd.holds, GCmd.holds, hg]
    rfl
  · exact header_emit hc hw (Rec.set_ne r x hj) v

theorem headerPairs_silent {cs : List (HCmd Header.decls)} (hc : ∀ c ∈ cs, c ∈ Header.cmds) {i : Nat}
    {v : Version} (ha : ∀ c ∈ cs, c.active i v = false) (r : Header)
    (x : (tyAt Header.decls i).den) : headerPairs cs v (r.set i x) = headerPairs cs v r := by
  induction cs with
  | nil => rfl
  | cons c cs ih =>
    rw [headerPairs, headerPairs, List.flatMap_cons, List.flatMap_cons,
      header_silent (hc c List.mem_cons_self) (ha c List.mem_cons_self)]
    exact congrArg _ (ih (fun c h => hc c (List.mem_cons_of_mem _ h))
      fun c h => ha c (List.mem_cons_of_mem _ h))

/-- What is written for a field of the header. -/
def Header.part (v : Version) (i : Nat) (x : (tyAt Header.decls i).den) : List CodePair :=
  headerPairs (Header.cmds.filter (HCmd.active i v)) v (Rec.set (Rec.dflt Header.decls) i x)

theorem headerPairs_part {cs : List (HCmd Header.decls)} (hc : ∀ c ∈ cs, c ∈ Header.cmds)
    (hp : cs.Pairwise fun c c' => c.apart c' = true) {i : Nat} (hi : i ∉ Header.special)
    (v : Version) (r : Header) : ∃ before behind, ∀ x : (tyAt Header.decls i).den,
      headerPairs cs v (r.set i x) = before ++
        headerPairs (cs.filter (HCmd.active i v)) v (Rec.set (Rec.dflt Header.decls) i x) ++
          behind := by
  induction cs with
  | nil => exact ⟨[], [], fun _ => rfl⟩
  | cons c cs ih =>
    obtain ⟨h1, h2⟩ := List.pairwise_cons.mp hp
    have hm := hc c List.mem_cons_self
    have hms := fun c h => hc c (List.mem_cons_of_mem _ h)
    by_cases ha : c.active i v = true
    · have hq : ∀ c' ∈ cs, c'.active i v = false := by
        intro c' hc'
        rw [Bool.eq_false_iff]
        intro ha'
        simp only [HCmd.active, Bool.and_eq_true] at ha ha'
        obtain ⟨w, hw⟩ := writes_field ha.1
        obtain ⟨w', hw'⟩ := writes_field ha'.1
        have := h1 c' hc'
        simp only [HCmd.apart, hw, hw', Bool.or_eq_true, decide_eq_true_eq, ne_eq, not_true,
          false_or] at this
        rcases this with this | this
        · refine hi ?_
          simp only [List.mem_cons, List.not_mem_nil, or_false] at this
          rcases this with rfl | rfl <;> decide
        · have := List.all_eq_true.mp this v (by cases v <;> decide)
          rw [ha.2, ha'.2] at this
          cases this
      refine ⟨[], headerPairs cs v r, fun x => ?_⟩
      have hf : (c :: cs).filter (HCmd.active i v) = [c] := by
        rw [List.filter_cons, if_pos ha, List.filter_eq_nil_iff.mpr fun c' h => by simp [hq c' h]]
      rw [hf]
      simp only [HCmd.active, Bool.and_eq_true] at ha
      have he : c.emit v (Rec.set r i x) = c.emit v (Rec.set (Rec.dflt Header.decls) i x) :=
        header_emit hm ha.1 (by rw [Rec.set_self, Rec.set_self]) v
      have hr := headerPairs_silent hms hq r x
      unfold headerPairs at hr ⊢
      rw [List.flatMap_cons, he, hr]
      simp
    · have ha : c.active i v = false := by simpa using ha
      obtain ⟨a, b, h⟩ := ih hms h2
      refine ⟨c.emit v r ++ a, b, fun x => ?_⟩
      have hf : (c :: cs).filter (HCmd.active i v) = cs.filter (HCmd.active i v) := by
        rw [List.filter_cons, ha]
        simp
      rw [hf]
      have := h x
      rw [headerPairs, List.flatMap_cons, header_silent hm ha, ← headerPairs, this]
      simp

theorem header_part {i : Nat} (hi : i ∉ Header.special) (r : Header) :
    ∃ before behind, ∀ x : (tyAt Header.decls i).den,
      Header.pairs (r.set i x) = before ++ Header.part r.version i x ++ behind := by
  obtain ⟨a, b, h⟩ := headerPairs_part (fun _ h => h) header_apart_cmds hi r.version r
  refine ⟨.newStr 0 str!"SECTION" :: .newStr 2 str!"HEADER" :: a, b ++ [.newStr 0 str!"ENDSEC"],
    fun x => ?_⟩
  have h0 : (0 : Nat) ≠ i := fun h => hi (h ▸ by decide)
  have hv : Header.version (r.set i x) = r.version := by
    change Rec.set r i x 0 = r 0
    exact Rec.set_ne r x h0
  rw [Header.pairs_eq, inSection, Header.body, hv, h x, Header.part]
  simp

/-! ### The lists -/

set_option maxRecDepth 20000 in
theorem header_seed (v : Version) (x : Handle) :
    ∃ y, Header.part v 141 x = [.newStr 9 str!"$HANDSEED", y] := by
  have h1 : (Header.cmds.filter fun c => c.g.writes 141) =
      [⟨str!"$HANDSEED", { cmd := .field 141 (.one 5 .handle) }⟩] := rfl
  have h2 : Header.cmds.filter (HCmd.active 141 v) =
      (Header.cmds.filter fun c => c.g.writes 141).filter
        fun c => versionGate c.g.min c.g.max v := by
    rw [List.filter_filter]
    congr 1
    funext c
    exact Bool.and_comm _ _
  unfold Header.part
  rw [h2, h1]
  exact ⟨_, rfl⟩

theorem flatMap_mid {α β : Type} (f : α → List β) (a l b : List α) :
    (a ++ l ++ b).flatMap f = a.flatMap f ++ l.flatMap f ++ b.flatMap f := by simp

theorem mapM_append_ok {α β : Type} {f : α → Except DxfErr β} {a b : List α} {r : List β}
    (h : (a ++ b).mapM f = .ok r) : ∃ x y, a.mapM f = .ok x ∧ b.mapM f = .ok y ∧ r = x ++ y := by
  rw [List.mapM_append] at h
  obtain ⟨x, h1, h⟩ := bind_ok h
  obtain ⟨y, h2, h⟩ := bind_ok h
  cases h
  exact ⟨x, y, h1, h2, rfl⟩

theorem mapM_nothing {α β : Type} (l : List α) :
    (l.mapM fun _ => (.ok [] : Except DxfErr (List β))) = .ok (l.map fun _ => []) ∧
      (l.map fun _ => ([] : List β)).flatten = [] := by
  constructor
  · induction l with
    | nil => rfl
    | cons a l ih =>
      rw [List.mapM_cons, ih]
      rfl
  · induction l with
    | nil => rfl
    | cons a l ih => simp

/-- All sections but one. -/
theorem codePairs_ok {codec : ImageCodec Img} {d : Drawing Img} {ps : List CodePair}
    (h : d.codePairs codec = .ok ps) : ∃ os ts, d.objectPairs = .ok os ∧
      d.thumbnailPairs codec = .ok ts ∧ ps = d.header.pairs ++ d.classPairs ++ d.tablePairs ++
        d.blockPairs ++ d.entityPairs ++ os ++ ts ++ [.newStr 0 str!"EOF"] := by
  obtain ⟨os, h1, h⟩ := bind_ok h
  obtain ⟨ts, h2, h⟩ := bind_ok h
  cases h
  exact ⟨os, ts, h1, h2, rfl⟩

theorem codePairs_of {codec : ImageCodec Img} {d : Drawing Img} {os ts : List CodePair}
    (h1 : d.objectPairs = .ok os) (h2 : d.thumbnailPairs codec = .ok ts) :
    d.codePairs codec = .ok (d.header.pairs ++ d.classPairs ++ d.tablePairs ++
        d.blockPairs ++ d.entityPairs ++ os ++ ts ++ [.newStr 0 str!"EOF"]) := by
  rw [codePairs, h1]
  change (d.thumbnailPairs codec >>= _) = _
  rw [h2]
  rfl

/-! ### Adding an entity -/

theorem names_flat {e e' : Entity} {h : Handle} (hf : e'.toFlat = (e.setHandle h).toFlat) :
    e'.layer = e.layer ∧ e'.lineType = e.lineType ∧ e'.mlineStyle = e.mlineStyle ∧
      e'.dimStyle = e.dimStyle ∧ e'.textStyle = e.textStyle := by
  obtain ⟨⟨k, n, x⟩, ex⟩ := e
  obtain ⟨f', ex'⟩ := e'
  cases hf
  refine ⟨rfl, rfl, ?_, ?_, ?_⟩ <;> cases k <;> rfl

/-- Adding an entity whose names are all there. -/
theorem addEntity_plain {d d' : Drawing Img} {e e' : Entity} (hr : d.EntityRefs e)
    (h : d.addEntity e = .ok (e', d')) : ∃ n : Handle, d' = { d with
      header := d.header.set 141 n
      entities := d.entities ++ [e'] } := by
  obtain ⟨⟨hd, d1⟩, h1, h⟩ := bind_ok h
  obtain ⟨⟨e2, d2⟩, h2, h⟩ := bind_ok h
  obtain ⟨d3, h3, h⟩ := bind_ok h
  cases h
  obtain ⟨fs, ht, hf, -⟩ := childHandles_ok h2
  have t := (Taken.one h1).trans ht
  obtain ⟨n1, n2, n3, n4, n5⟩ := names_flat hf
  have es : d2 = { d with header := d2.header } := t.same
  have hh : d2.header = d.header.set 141 (d2.header 141) := by
    funext i
    by_cases hi : i = 141
    · subst hi
      rw [Rec.set_self]
    · rw [Rec.set_ne _ _ hi, t.header i hi]
  have hb : ∀ t s, d.has t s = true → d2.has t s = true := by
    intro t s h
    rw [es]
    exact h
  obtain ⟨r1, r2, r3, r4, r5⟩ := hr
  have e3 : d2.ensureMLineStyle e'.mlineStyle = .ok d2 := by
    rw [n3]
    cases hm : e.mlineStyle with
    | none => rfl
    | some s =>
      obtain ⟨o, ho, hs⟩ := r3 s (by rw [hm]; rfl)
      rw [ensureMLineStyle, if_pos]
      refine List.any_eq_true.mpr ⟨o, ?_, by rw [hs]; simp⟩
      rw [es]
      exact ho
  refine ⟨d2.header 141, ?_⟩
  have h4 : d2.addEntityNoHandle e' = .ok { d2 with entities := d2.entities ++ [e'] } := by
    rw [addEntityNoHandle, e3]
    change (d2.ensureAll .dimStyle e'.dimStyle.toList >>= _) = _
    rw [ensureAll_has fun s hs => hb _ _ (r4 s (by rw [← n4]; simpa using hs))]
    change (d2.ensure .layer e'.layer >>= _) = _
    rw [ensure_has (hb _ _ (n1 ▸ r1))]
    change (d2.ensure .lineType e'.lineType >>= _) = _
    rw [ensure_has (hb _ _ (n2 ▸ r2))]
    change (d2.ensureAll .style e'.textStyle.toList >>= _) = _
    rw [ensureAll_has fun s hs => hb _ _ (r5 s (by rw [← n5]; simpa using hs))]
    rfl
  rw [h4] at h3
  cases h3
  rw [← hh, es]

end Dxf
