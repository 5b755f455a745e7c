import Verif.Lemmas.AgainLasting
import Verif.Props.Reload

/-! Saving a drawing and loading it again and again: C61. -/

namespace Dxf

open Drawing

variable {Img : Type} {codec : ImageCodec Img} {h0 : Header} {d d' : Drawing Img}

/-- C61: however often a drawing is saved and loaded, what its version can express is there, with the
same values, in the same order and with the same handles; and it can be saved and loaded once more
as long as there are handles left.  (Partial: `Lasting` excludes drawings with parts that do not come
back (C42) and dates that change each time (C44).  `Kept` makes exceptions for matrices of spatial
filters (C39), for extension groups with empty groups inside, and for the coordinate systems of
viewports; the latter two are lost, see below.) -/
theorem C61_partial (hl : d.Lasting codec) {n : Nat} (hc : Cycles codec n d d') :
    (0 < n → d.Kept d') ∧
    (d'.next.toNat + d'.demand < 2 ^ 64 → ∀ h0 : Header, h0.Fresh → h0.DatesReadable →
      ∀ order : List Str, 41 + 2 * order.length < 2 ^ 64 →
      ∃ ps d'', d'.codePairs codec = .ok ps ∧ load codec h0 order (toStream ps) = (.ok d'', []) ∧
        d.Kept d'' ∧ Cycles codec (n + 1) d d'') := by
  refine ⟨(cycles_lasting hl hc).2.1, fun hroom h0 hf hdr order ho => ?_⟩
  obtain ⟨ps, p, d'', h1, h2, -⟩ := cycle hf order ho (cycles_lasting hl hc).1.toFaithful hroom
  have hc' := Cycles.more hc hf hdr ho hroom h1 h2
  exact ⟨ps, d'', h1, h2, (cycles_lasting hl hc').2.1 (Nat.succ_pos n), hc'⟩

/-- C61: the handles suffice for `n` times if there are `9 ^ n` times as many as are needed for one
time. -/
theorem C61_runs (hl : d.Lasting codec) (n : Nat) (hroom : d.next.toNat + 9 ^ n * d.demand < 2 ^ 64)
    (hf : h0.Fresh) (hdr : h0.DatesReadable) : ∃ d', Cycles codec n d d' := by
  have key : ∀ m k, m + k = n → ∃ d', Cycles codec m d d' ∧
      d'.next.toNat + 9 ^ k * d'.demand < 2 ^ 64 := by
    intro m
    induction m with
    | zero =>
      intro k hk
      have hk : k = n := by omega
      subst hk
      exact ⟨d, .none, hroom⟩
    | succ m ih =>
      intro k hk
      obtain ⟨d1, h1, h2⟩ := ih (k + 1) (by omega)
      have hp : 1 ≤ 9 ^ k := Nat.one_le_pow k 9 (by decide)
      have hd : d1.demand ≤ 9 ^ k * d1.demand := Nat.le_mul_of_pos_left _ hp
      have hs : 9 ^ (k + 1) * d1.demand = 9 * (9 ^ k * d1.demand) := by
        rw [Nat.pow_succ, Nat.mul_comm (9 ^ k) 9, Nat.mul_assoc]
      have hroom1 : d1.next.toNat + d1.demand < 2 ^ 64 := by omega
      obtain ⟨ps, p, d2, k1, k2, -, -, k5, k6⟩ := cycle hf [] (by decide)
        (cycles_lasting hl h1).1.toFaithful hroom1
      refine ⟨d2, .more h1 hf hdr (by decide) hroom1 k1 k2, ?_⟩
      have : 9 ^ k * d2.demand ≤ 9 ^ k * (8 * d1.demand) := Nat.mul_le_mul_left _ k6
      have e : 9 ^ k * (8 * d1.demand) = 8 * (9 ^ k * d1.demand) := Nat.mul_left_comm _ _ _
      omega
  obtain ⟨d', h, -⟩ := key n 0 rfl
  exact ⟨d', h⟩

/-- C61 fails for block records: there is one more for each block each time (C42). -/
theorem C61_records (hl : d.Lasting codec) (hv : .r13 ≤ d.version) {n : Nat}
    (hc : Cycles codec n d d') :
    (d'.tables .blockRecord).length = (d.tables .blockRecord).length + n * d.blocks.length ∧
    d'.blocks.length = d.blocks.length := by
  induction hc with
  | none => simp
  | more hc hf hdr ho hroom hp hld ih =>
    obtain ⟨e1, e2⟩ := ih hl hv
    obtain ⟨h1, -, h3⟩ := cycles_lasting hl hc
    obtain ⟨p, k1, k2, -⟩ := cycle_of hf ho h1.toFaithful hroom hp hld
    obtain ⟨items, new, e, f1, f2⟩ := k2.records
    have l1 := (k1.tables .blockRecord).length_eq
    rw [filed, if_neg (fun h => h.2 (by rw [h3]; exact hv))] at l1
    have l2 := k1.blocks.length_eq
    have l3 := k2.blocks.length_eq
    have l4 := f1.length_eq
    have l5 := f2.length_eq
    refine ⟨?_, by omega⟩
    rw [e, List.length_append, Nat.succ_mul]
    omega

/-- C61 fails for extension groups: each time, the empty ones are left out, at every depth, and
groups become empty by that.  What nesting remains after `n` times is what `n` times leaving out
leaves. -/
theorem C61_groups (hl : d.Lasting codec) (hv : .r14 ≤ d.version) {n : Nat}
    (hc : Cycles codec n d d') (t : TName) : ∃ items new, d'.tables t = items ++ new ∧
      List.Forall₂ (fun a b => b.ext = ExtGroup.kept^[n] a.ext) (d.tables t) items := by
  induction hc with
  | none => exact ⟨_, [], (List.append_nil _).symm, List.forall₂_same.mpr fun _ _ =>
      (rfl : _ = ExtGroup.kept^[0] _)⟩
  | more hc hf hdr ho hroom hp hld ih =>
    obtain ⟨items, new, e1, e2⟩ := ih hl hv
    obtain ⟨h1, -, h3⟩ := cycles_lasting hl hc
    obtain ⟨p, k1, k2, -⟩ := cycle_of hf ho h1.toFaithful hroom hp hld
    obtain ⟨items', new', e3, f1, -⟩ := k2.table t
    have k := k1.tables t
    rw [filed, if_neg (fun h => h.2 (by
      rw [h3]
      revert hv
      generalize Drawing.version _ = v
      cases v <;> decide)), e1] at k
    obtain ⟨xs, ys, g1, -, e4⟩ := forall₂_split k
    rw [e4] at f1
    obtain ⟨us, vs, g2, -, e5⟩ := forall₂_split f1
    refine ⟨us, vs ++ new', by rw [e3, e5, List.append_assoc], ?_⟩
    refine Forall₂.comp (S := fun a c => ∃ b, t.Restored _ _ a b ∧ t.Handled b c) ?_ e2
      (Forall₂.comp (fun a b c h h' => ⟨b, h, h'⟩) g1 g2)
    rintro a b c h1 ⟨b2, h2, h4⟩
    rw [h4.same.2.1, TName.restored_ext h2, h3, if_pos hv, h1, Function.iterate_succ_apply']

/-- A group in a group in a group lasts three times. -/
example :
    let gs : List ExtGroup := [⟨str!"A", [.group str!"B" [.group str!"C" []]]⟩]
    ExtGroup.kept gs = [⟨str!"A", [.group str!"B" []]⟩] ∧
    ExtGroup.kept^[2] gs = [⟨str!"A", []⟩] ∧ ExtGroup.kept^[3] gs = [] := ⟨rfl, rfl, rfl⟩

theorem viewPort_own (wh : Bool) : ∀ g ∈ Tables.viewPort.all wh,
    (g.writes 28 = true → g.max = some .r2004) ∧
    ((ownUcs.any fun j => g.writes j) = true → ∀ r, g.cond r = r 28) := by
  simp only [TableKind.all, Tables.viewPort, Tables.viewPortHead, Tables.viewPortCmds,
    List.cons_append, List.nil_append]
  repeat' first
    | exact fun _ h => absurd h List.not_mem_nil
    | (refine List.forall_mem_cons.mpr ⟨?_, ?_⟩)
    | exact ⟨fun h => (Bool.false_ne_true h).elim, fun h => (Bool.false_ne_true h).elim⟩
    | exact ⟨fun _ => rfl, fun h => (Bool.false_ne_true h).elim⟩
    | exact ⟨fun h => (Bool.false_ne_true h).elim, fun _ _ => rfl⟩

theorem viewPort_flag {v : Version} (hv : .r2007 ≤ v) {wh : Bool} {a b : TableItem Tables.viewPort}
    (h : Restored Tables.viewPort v wh [] a b) : b.fields 28 = false := by
  have hno : ∀ g ∈ Tables.viewPort.all wh, g.writes 28 = true → g.holds v a.fields = true → False := by
    intro g hg hw hh
    have := (viewPort_own wh g hg).1 hw
    obtain ⟨cmd, mn, mx, cond⟩ := g
    change mx = _ at this
    subst this
    unfold GCmd.holds versionGate at hh
    simp only [Bool.and_eq_true, decide_eq_true_eq] at hh
    have h4 := hh.1.2
    revert hv h4
    cases v <;> decide
  have := h.1 28 (by simp) fun g hg hh w hc => (hno g hg (by
    unfold GCmd.writes
    rw [hc]
    exact beq_self_eq_true 28) hh).elim
  rw [if_neg (fun ⟨g, hg, hw, hh⟩ => hno g hg hw hh)] at this
  exact this

theorem viewPort_rest {v : Version} {wh : Bool} {a b : TableItem Tables.viewPort}
    (h : Restored Tables.viewPort v wh [] a b) (ha : a.fields 28 = false) :
    ∀ i ∈ ownUcs, b.fields i = Rec.dflt Tables.viewPort.decls i := by
  intro i hi
  have hno : ∀ g ∈ Tables.viewPort.all wh, g.writes i = true → g.holds v a.fields = true → False := by
    intro g hg hw hh
    have := (viewPort_own wh g hg).2 (List.any_eq_true.mpr ⟨i, hi, hw⟩) a.fields
    unfold GCmd.holds at hh
    rw [this] at hh
    exact absurd (ha.symm.trans ((Bool.and_eq_true _ _).mp hh).2) Bool.false_ne_true
  have := h.1 i (by simp) fun g hg hh w hc => (hno g hg (by
    unfold GCmd.writes
    rw [hc]
    exact beq_self_eq_true i) hh).elim
  rw [if_neg (fun ⟨g, hg, hw, hh⟩ => hno g hg hw hh)] at this
  exact this

theorem viewPort_cycles (hl : d.Lasting codec) (hv : .r2007 ≤ d.version) {n : Nat}
    (hc : Cycles codec n d d') :
    (1 ≤ n → ∀ x ∈ d'.tables .viewPort, x.fields 28 = false) ∧
    (2 ≤ n → ∀ x ∈ d'.tables .viewPort, ∀ i ∈ ownUcs,
      x.fields i = Rec.dflt Tables.viewPort.decls i) := by
  induction hc with
  | none => exact ⟨fun h => absurd h (by decide), fun h => absurd h (by decide)⟩
  | @more m e e1 e2 _ _ _ hc hf hdr ho hroom hp hld ih =>
    obtain ⟨ih1, -⟩ := ih hl hv
    obtain ⟨h1, -, h3⟩ := cycles_lasting hl hc
    obtain ⟨p, k1, k2, -⟩ := cycle_of hf ho h1.toFaithful hroom hp hld
    obtain ⟨items, new, e3, f1, f2⟩ := k2.table .viewPort
    have hcase : ∀ x ∈ e2.tables .viewPort, (∃ a ∈ e1.tables .viewPort, ∃ b,
        Restored Tables.viewPort e1.version e1.writeHandles [] a b ∧
        TName.Handled .viewPort b x) ∨ ∃ s h, x = TName.setHandle .viewPort
          (TName.named .viewPort s) h := by
      intro x hx
      rw [e3] at hx
      rcases List.mem_append.mp hx with hx | hx
      · obtain ⟨b, hb, hbx⟩ := forall2_origin f1 hx
        obtain ⟨a, ha, hab⟩ := forall2_origin (k1.tables .viewPort) hb
        refine .inl ⟨a, ?_, b, hab, hbx⟩
        unfold filed at ha
        split at ha
        · cases ha
        · exact ha
      · exact .inr (f2 x hx)
    refine ⟨fun _ x hx => ?_, fun hm x hx i hi => ?_⟩
    · rcases hcase x hx with ⟨a, ha, b, hab, hbx⟩ | ⟨s, h, rfl⟩
      · exact (hbx.same.1 28 (by decide)).trans (viewPort_flag (by rw [h3]; exact hv) hab)
      · rfl
    · have hi1 : i ≠ 1 := by
        rintro rfl
        exact absurd hi (by decide)
      have hi0 : i ≠ 0 := by
        rintro rfl
        exact absurd hi (by decide)
      rcases hcase x hx with ⟨a, ha, b, hab, hbx⟩ | ⟨s, h, rfl⟩
      · exact (hbx.same.1 i hi1).trans (viewPort_rest hab (ih1 (by omega) a ha) i hi)
      · exact (Rec.set_ne _ _ hi1).trans (Rec.set_ne _ _ hi0)

/-- C61 fails for viewports with their own coordinate system: from R2007 on it is not written that
they have one, so that it comes back from the first file but is not written to the second one.  After
two times there is none left. -/
theorem C61_ucs_lost (hl : d.Lasting codec) (hv : .r2007 ≤ d.version) {n : Nat} (hn : 2 ≤ n)
    (hc : Cycles codec n d d') : ∀ x ∈ d'.tables .viewPort,
      x.fields 28 = false ∧ ∀ i ∈ [29, 30, 31, 32, 33, 34, 35],
        x.fields i = Rec.dflt Tables.viewPort.decls i := by
  exact fun x hx => ⟨(viewPort_cycles hl hv hc).1 (by omega) x hx, (viewPort_cycles hl hv hc).2 hn x hx⟩

/-- … although it is there after the first time. -/
theorem C61_ucs_first (hl : d.Lasting codec) (hv : .r2007 ≤ d.version)
    (hc : Cycles codec 1 d d') : ∃ items new, d'.tables .viewPort = items ++ new ∧
      List.Forall₂ (fun a b => a.fields 28 = true → ∀ i ∈ [29, 30, 31, 32, 33, 34, 35],
        Representable (Tables.viewPort.all d.writeHandles) d.version a.fields i →
        b.fields i = a.fields i) (d.tables .viewPort) items := by
  cases hc with
  | more hc hf hdr ho hroom hp hld =>
    cases hc with
    | none =>
      obtain ⟨p, k1, k2, -⟩ := cycle_of hf ho hl.toFaithful hroom hp hld
      obtain ⟨items, new, e3, f1, f2⟩ := k2.table .viewPort
      refine ⟨items, new, e3, ?_⟩
      have k := k1.tables .viewPort
      rw [filed, if_neg (fun h => by cases h.1)] at k
      refine Forall₂.comp ?_ k f1
      intro a b c hab hbc ha i hi hrep
      change Restored Tables.viewPort _ _ [] a b at hab
      have hi1 : i ≠ 1 := by
        rintro rfl
        exact absurd hi (by decide)
      refine (hbc.same.1 i hi1).trans ?_
      refine (hab.1 i (by simp) hrep).trans (if_pos ?_)
      have hv2 : Version.r2000 ≤ d.version := by
        revert hv
        generalize d.version = v
        cases v <;> decide
      have hh : ∀ g : GCmd Tables.viewPortDecls, g.min = some .r2000 → g.max = none →
          g.cond a.fields = a.fields 28 → g.holds d.version a.fields = true := by
        intro g h1 h2 h3
        unfold GCmd.holds
        rw [h1, h2, h3, ha]
        change (decide (_ ≤ d.version) && true && true) = true
        rw [decide_eq_true hv2]
        rfl
      simp only [List.mem_cons, List.not_mem_nil, or_false] at hi
      rcases hi with rfl | rfl | rfl | rfl | rfl | rfl | rfl
      · exact ⟨_, List.mem_of_getElem? (i := 32) rfl, rfl, hh _ rfl rfl rfl⟩
      · exact ⟨_, List.mem_of_getElem? (i := 33) rfl, rfl, hh _ rfl rfl rfl⟩
      · exact ⟨_, List.mem_of_getElem? (i := 34) rfl, rfl, hh _ rfl rfl rfl⟩
      · exact ⟨_, List.mem_of_getElem? (i := 35) rfl, rfl, hh _ rfl rfl rfl⟩
      · exact ⟨_, List.mem_of_getElem? (i := 36) rfl, rfl, hh _ rfl rfl rfl⟩
      · exact ⟨_, List.mem_of_getElem? (i := 37) rfl, rfl, hh _ rfl rfl rfl⟩
      · exact ⟨_, List.mem_of_getElem? (i := 38) rfl, rfl, hh _ rfl rfl rfl⟩

/-! ### The hypotheses can be met -/

/-- A viewport with its own coordinate system. -/
def ownViewPort : TableItem Tables.viewPort :=
  { TName.setHandle .viewPort (TName.named .viewPort str!"*ACTIVE") 10#64 with
    fields := Rec.set (Rec.set (Rec.set (Rec.set (Rec.dflt _) 0 str!"*ACTIVE") 1 (10#64 : Handle))
      28 true) 34 (0x77#64 : Handle) }

/-- The sample drawing with the viewport and with dates that do not change. -/
def viewDrawing : Drawing Unit :=
  { sampleDrawing with
    header := Rec.set (Rec.set (Rec.set (Rec.set sampleDrawing.header 122 (1000000000 : Date))
      123 (1000000000 : Date)) 124 (1000000000 : Date)) 125 (1000000000 : Date)
    tables := fun
      | .layer => [TName.setHandle .layer (TName.named .layer str!"WALLS") 5#64]
      | .viewPort => [ownViewPort]
      | _ => [] }

theorem FWrite.fits_date {t : Ty} (w : FWrite t) (ht : t = .date) (a b : t.den)
    (hb : ∀ d : Date, HEq b d → Date.ofDouble (Date.asDouble d) = .ok d) : w.Fits a b := by
  cases w with
  | one code c =>
    cases c <;> first | trivial | cases ht
    exact hb _ HEq.rfl
  | many => cases ht
  | axes => cases ht
  | points => cases ht
  | lw => cases ht

theorem viewDrawing_lasting (codec : ImageCodec Unit) : viewDrawing.Lasting codec where
  toFaithful := { sampleDrawing_faithful codec with
    dates := by
      refine ⟨⟨1000000000, ?_⟩, ⟨1000000000, ?_⟩, ⟨1000000000, ?_⟩, ⟨1000000000, ?_⟩⟩ <;>
        decide +kernel
    tables := by
      intro t x hx
      cases t <;> first
        | (obtain rfl := List.mem_singleton.mp hx; exact nofun)
        | cases hx
    colors := by
      intro x hx
      obtain rfl := List.mem_singleton.mp hx
      decide }
  stamps := by
    intro i hi g hg hh w hc
    refine w.fits_date ?_ _ _ ?_
    · simp only [List.mem_cons, List.not_mem_nil, or_false] at hi
      rcases hi with rfl | rfl | rfl | rfl <;> rfl
    · have e : HEq (viewDrawing.header i) (1000000000 : Date) := by
        simp only [List.mem_cons, List.not_mem_nil, or_false] at hi
        rcases hi with rfl | rfl | rfl | rfl <;> rfl
      intro d h
      cases eq_of_heq (h.symm.trans e)
      decide +kernel
  positive := by
    intro x hx
    obtain rfl := List.mem_singleton.mp hx
    decide
  timestamps := by
    intro o ho h
    obtain rfl := List.mem_singleton.mp ho
    rcases h with h | h <;> cases h

/-- It can be saved and loaded ten times. -/
example (codec : ImageCodec Unit) : ∃ d', Cycles codec 10 viewDrawing d' := by
  refine C61_runs (viewDrawing_lasting codec) 10 ?_ (h0 := Rec.dflt Header.decls) (fun _ _ => rfl)
    (sampleDrawing_faithful codec).dates
  have hn : viewDrawing.next = 0x100#64 := rfl
  have hd : viewDrawing.demand = 39 := rfl
  rw [hn, hd]
  decide

end Dxf
