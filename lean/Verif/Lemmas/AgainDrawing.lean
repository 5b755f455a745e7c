import Verif.Lemmas.Again

/-! Round trips of drawings one after another. -/

namespace Dxf

open Drawing

variable {Img : Type} {codec : ImageCodec Img} {h0 : Header} {d p d' : Drawing Img}

/-! ### Handles -/

theorem TName.handle_kept {t : TName} {v : Version} {a b c : t.Item} (h : t.Restored v true a b)
    (hc : t.Handled b c) : (t.handle a).Kept (t.handle c) := by
  intro hn
  have e := TName.handle_back h
  unfold TName.Handled at hc
  rw [if_neg (by rw [e]; exact hn)] at hc
  rw [hc, e]

theorem Block.handle_kept {v : Version} {a b c : Block} (hv : .r13 ≤ v) (h : a.Restored v true b)
    (hc : b.Handled c) : a.handle.Kept c.handle := by
  intro hn
  have e := Block.handle_back hv h
  obtain ⟨es, -, hc⟩ := hc
  rw [if_neg (by rw [e]; exact hn)] at hc
  rw [hc, ← e]
  rfl

theorem Entity.handle_kept {v : Version} {a b c : Entity} (h : a.Restored v true b)
    (hc : b.Handled c) : a.handle.Kept c.handle := by
  intro hn
  have e := Entity.handle_back h
  unfold Entity.Handled at hc
  rw [if_neg (by rw [e]; exact hn)] at hc
  rw [hc, e]

theorem Object.handle_kept {v : Version} {a b c : Object} (h : a.Restored v b)
    (hc : b.Handled c) : a.handle.Kept c.handle := by
  intro hn
  have e := Object.handle_back h
  unfold Object.Handled at hc
  rw [if_neg (by rw [e]; exact hn)] at hc
  rw [hc, e]

theorem Handle.kept_trans {a b c : Handle} (h1 : a.Kept b) (h2 : b.Kept c) : a.Kept c := by
  intro hn
  have e := h1 hn
  rw [h2 (by rw [e]; exact hn), e]

theorem Forall₂.comp {α β γ : Type} {R : α → β → Prop} {S : β → γ → Prop} {T : α → γ → Prop}
    (hT : ∀ a b c, R a b → S b c → T a c) {l1 : List α} {l2 : List β} {l3 : List γ}
    (h1 : List.Forall₂ R l1 l2) (h2 : List.Forall₂ S l2 l3) : List.Forall₂ T l1 l3 := by
  induction h1 generalizing l3 with
  | nil =>
    cases h2
    exact .nil
  | cons h _ ih =>
    cases h2 with
    | cons h' t => exact .cons (hT _ _ _ h h') (ih t)

theorem forall₂_split {α β : Type} {R : α → β → Prop} {l1 l2 : List α} {l : List β}
    (h : List.Forall₂ R (l1 ++ l2) l) : ∃ j1 j2, List.Forall₂ R l1 j1 ∧ List.Forall₂ R l2 j2 ∧
      l = j1 ++ j2 := by
  induction l1 generalizing l with
  | nil => exact ⟨[], l, .nil, h, rfl⟩
  | cons a l1 ih =>
    cases h with
    | cons h t =>
      obtain ⟨j1, j2, h1, h2, rfl⟩ := ih t
      exact ⟨_ :: j1, j2, .cons h h1, h2, rfl⟩

/-! ### New entries -/

theorem TName.named_kept (t : TName) (v : Version) (wh : Bool) (s : Str) (h : Handle) :
    t.Kept v wh (t.named s) (t.setHandle (t.named s) h) := by
  have key : ∀ (K : TableKind) (skip : List Nat) (a b : TableItem K),
      Written (K.all wh) v a.fields 0 → 1 ∈ skip →
      (∀ i, i ≠ 0 → a.fields i = Rec.dflt K.decls i) → a.ext = [] → a.xdata = [] →
      (∀ i, i ≠ 1 → b.fields i = a.fields i) → b.ext = [] → b.xdata = [] →
      Entry.Kept (K.all wh) skip v a b := by
    intro K skip a b hw h1 ha hae hax hb hbe hbx
    refine ⟨fun i hi _ => ?_, fun _ => ?_, ?_⟩
    · rw [hb i fun e => hi (e ▸ h1)]
      by_cases h0 : i = 0
      · subst h0
        rw [if_pos hw]
      · split
        · rfl
        · exact ha i h0
    · rw [hbe, hae]
      split <;> rfl
    · rw [hbx, hax]
      split <;> rfl
  have hb := t.set_fields (t.named s) h
  cases t
  case layer =>
    refine ⟨key _ _ _ _ ?_ (.head _) (fun i hi => Rec.set_ne _ _ hi) rfl rfl hb rfl rfl,
      fun _ => ⟨hb 3 (by decide), hb 9 (by decide)⟩⟩
    exact ⟨_, List.mem_of_getElem? (i := 3) rfl, rfl, rfl⟩
  case viewPort =>
    refine key _ _ _ _ ?_ ?_ (fun i hi => Rec.set_ne _ _ hi) rfl rfl hb rfl rfl
    · exact ⟨_, List.mem_of_getElem? (i := 3) rfl, rfl, rfl⟩
    · split <;> exact .head _
  all_goals
    refine key _ _ _ _ ?_ (.head _) (fun i hi => Rec.set_ne _ _ hi) rfl rfl hb rfl rfl
    exact ⟨_, List.mem_of_getElem? (i := 3) rfl, rfl, rfl⟩

theorem Object.style_kept (v : Version) (s : Str) (h : Handle) :
    (Object.mlineStyle s).Kept v ((Object.mlineStyle s).setHandle h) := by
  refine ⟨_, _, rfl, ⟨fun i hi _ => ?_, fun _ => ?_, ?_⟩, rfl⟩
  · have h0 : i ≠ 0 := fun e => hi (e ▸ List.mem_cons_self)
    refine (Rec.set_ne _ _ h0).trans ?_
    by_cases h2 : i = 2
    · subst h2
      refine (if_pos ?_).symm
      refine ⟨{ cmd := .field 2 (.one 2 .str) }, ?_, rfl, rfl⟩
      refine List.mem_append_right _ (List.mem_append_left _ (List.mem_append_right _ ?_))
      exact List.mem_of_getElem? (i := 1) rfl
    · split
      · rfl
      · exact Rec.set_ne _ _ h2
  · split <;> rfl
  · split <;> rfl

/-! ### One round trip -/

theorem version_kept (hk : d.Kept d') (hv : d.version ≠ .r11) : d'.version = d.version := by
  obtain ⟨h0, -, h⟩ := hk.header
  have := h 0 (by decide) (Header.representable_version _ _ hv)
  rwa [if_pos (Header.written_version _ _)] at this

theorem writeHandles_kept (hk : d.Kept d') (hv : d.version ≠ .r11) :
    d'.writeHandles = d.writeHandles := by
  have e := version_kept hk hv
  unfold writeHandles
  rw [e]
  by_cases h13 : Version.r13 ≤ d.version
  · rw [decide_eq_true h13]
    rfl
  · obtain ⟨h0, -, h⟩ := hk.header
    have := h 140 (by decide) fun _ _ _ w _ => FWrite.fits_bool rfl w _ _
    rw [if_pos ⟨_, Header.known_mem (n := 143) rfl (by decide +kernel), rfl, by
      change (true && decide (d.version ≤ _) && true) = true
      revert h13
      cases d.version <;> decide⟩] at this
    rw [this]

theorem Drawing.Completed.table (hc : p.Completed d') (t : TName) : ∃ items new, d'.tables t = items ++ new ∧
    List.Forall₂ t.Handled (p.tables t) items ∧ ∀ x ∈ new, ∃ s h, x = t.setHandle (t.named s) h := by
  by_cases ht : t = .blockRecord
  · subst ht
    obtain ⟨items, new, e, h1, h2⟩ := hc.records
    refine ⟨items, new, e, h1, fun x hx => ?_⟩
    obtain ⟨b, -, h, rfl⟩ := forall2_origin h2 hx
    exact ⟨_, h, rfl⟩
  · obtain ⟨items, new, e, h1, -, h2⟩ := hc.tables t ht
    refine ⟨items, new, e, h1, fun x hx => ?_⟩
    obtain ⟨-, h, e⟩ := h2 x hx
    exact ⟨_, h, e⟩

theorem kept_once (hf : h0.Fresh) (hr : d.Restored h0 p) (hc : p.Completed d') : d.Kept d' where
  header := ⟨h0, hf, fun i hi hrep => (hc.header i hi).trans (hr.header i hrep)⟩
  classes := hc.classes.trans hr.classes
  tables := fun t => by
    obtain ⟨items, new, e, h1, h2⟩ := hc.table t
    refine ⟨items, new, e, Forall₂.comp (fun a b c hab hbc => ⟨TName.kept_of hab hbc, fun hw => by
      rw [hw] at hab
      exact TName.handle_kept hab hbc⟩) (hr.tables t) h1, fun x hx => ?_⟩
    obtain ⟨s, h, rfl⟩ := h2 x hx
    exact ⟨s, t.named_kept _ _ s h⟩
  blocks := Forall₂.comp (fun a b c hab hbc => ⟨Block.kept_of hab hbc, fun hv => by
    have hw : d.writeHandles = true := by
      unfold writeHandles
      rw [decide_eq_true hv]
      rfl
    rw [hw] at hab
    exact Block.handle_kept hv hab hbc⟩) hr.blocks hc.blocks
  entities := Forall₂.comp (fun a b c hab hbc => ⟨Entity.kept_handled hab hbc, fun hw => by
    rw [hw] at hab
    exact Entity.handle_kept hab hbc⟩) hr.entities hc.entities
  objects := by
    obtain ⟨new, items, e, h1, -, h2, -⟩ := hc.objects
    refine ⟨new, items, e, Forall₂.comp (fun a b c hab hbc =>
      ⟨Object.kept_of hab hbc, Object.handle_kept hab hbc⟩) hr.objects h1, fun x hx => ?_⟩
    obtain ⟨-, -, s, h, -, rfl⟩ := h2 x hx
    exact ⟨s, Object.style_kept _ s h⟩
  thumbnail := hc.thumbnail.trans hr.thumbnail

/-! ### One more -/

theorem Class.visible_twice (v : Version) (c : Class) :
    Class.visible v (Class.visible v c) = Class.visible v c := by
  unfold Class.visible
  split
  · rfl
  · split <;> rfl

theorem filed_kept {d1 : Drawing Img} {t : TName} {items new : List t.Item}
    (hv : d1.version = d.version) (e : d1.tables t = items ++ new) :
    (d1.filed t = items ++ new ∧ d.filed t = d.tables t) ∨ (d1.filed t = [] ∧ d.filed t = []) := by
  unfold filed
  rw [hv]
  split
  · exact .inr ⟨rfl, rfl⟩
  · exact .inl ⟨e, rfl⟩

theorem kept_trans {d1 d2 : Drawing Img} (hv : d.version ≠ .r11) (h1 : d.Kept d1)
    (h2 : d1.Kept d2) : d.Kept d2 := by
  have ev := version_kept h1 hv
  have ew := writeHandles_kept h1 hv
  refine ⟨?_, ?_, fun t => ?_, ?_, ?_, ?_, ?_⟩
  · obtain ⟨g1, f1, k1⟩ := h1.header
    obtain ⟨g2, f2, k2⟩ := h2.header
    rw [ev] at k2
    refine ⟨g2, f2, fun i hi hr => ?_⟩
    by_cases hn : i ∈ Header.nondet
    · -- the statements of these fields have no conditions
      have hall : ∀ g ∈ Header.known, ∀ w, g.cmd = .field i w → ∀ r, g.cond r = true :=
        fun g hg w hw => (steady_header g hg).2 i hn (by
          unfold GCmd.writes
          rw [hw]
          exact beq_self_eq_true i)
      have e1 := k1 i hi hr
      have hww : Written Header.known d.version d1.header i ↔
          Written Header.known d.version d.header i := by
        have : ∀ g ∈ Header.known, g.writes i = true →
            g.holds d.version d1.header = g.holds d.version d.header := by
          intro g hg hw
          have := (steady_header g hg).2 i hn hw
          unfold GCmd.holds
          rw [this, this]
        constructor
        · rintro ⟨g, hg, a, b⟩
          exact ⟨g, hg, a, (this g hg a).symm.trans b⟩
        · rintro ⟨g, hg, a, b⟩
          exact ⟨g, hg, a, (this g hg a).trans b⟩
      have hr1 : Representable Header.known d.version d1.header i := by
        intro g hg hh w hc
        have hh' : g.holds d.version d.header = true := by
          unfold GCmd.holds at hh ⊢
          rw [hall g hg w hc] at hh ⊢
          exact hh
        have hw : Written Header.known d.version d.header i := ⟨g, hg, by
          unfold GCmd.writes
          rw [hc]
          exact beq_self_eq_true i, hh'⟩
        rw [e1, if_pos hw]
        exact hr g hg hh' w hc
      rw [k2 i hi hr1]
      by_cases hw : Written Header.known d.version d.header i
      · rw [if_pos hw, if_pos (hww.mpr hw), e1, if_pos hw]
      · rw [if_neg hw, if_neg fun h => hw (hww.mp h)]
    · rw [f2 i hn]
      refine again (b := d1.header) (fun g hg _ => (steady_header g hg).1) hr ?_ (fun _ => nofun)
        fun hr1 => ?_
      · rw [k1 i hi hr, f1 i hn]
      · rw [k2 i hi hr1, f2 i hn]
  · rw [h2.classes, h1.classes, ev, List.map_map]
    exact List.map_congr_left fun c _ => Class.visible_twice _ c
  · obtain ⟨i1, n1, e1, k1, w1⟩ := h1.tables t
    obtain ⟨i2, n2, e2, k2, w2⟩ := h2.tables t
    rw [ev, ew] at k2 w2
    rcases filed_kept ev e1 with ⟨g1, -⟩ | ⟨g1, g0⟩
    · rw [g1] at k2
      obtain ⟨j1, j2, q1, q2, rfl⟩ := forall₂_split k2
      refine ⟨j1, j2 ++ n2, by rw [e2, List.append_assoc], Forall₂.trans (fun a b c h h' =>
        ⟨TName.kept_trans h.1 h'.1, fun hw => Handle.kept_trans (h.2 hw) (h'.2 hw)⟩) k1 q1,
        fun x hx => ?_⟩
      rcases List.mem_append.mp hx with hx | hx
      · obtain ⟨y, hy, hyx⟩ := forall2_origin q2 hx
        obtain ⟨s, hs⟩ := w1 y hy
        exact ⟨s, TName.kept_trans hs hyx.1⟩
      · exact w2 x hx
    · rw [g1] at k2
      cases k2
      exact ⟨[], n2, e2, by rw [g0]; exact .nil, w2⟩
  · have k2 := h2.blocks
    rw [ev, ew] at k2
    exact Forall₂.trans (fun a b c h h' => ⟨Block.kept_trans h.1 h'.1, fun hv =>
      Handle.kept_trans (h.2 hv) (h'.2 hv)⟩) h1.blocks k2
  · have k2 := h2.entities
    rw [ev, ew, forall₂_all (fun a b h => by rw [Entity.kept_kind h.1]) h1.entities] at k2
    exact Forall₂.trans (fun a b c h h' => ⟨Entity.kept_trans h.1 h'.1, fun hw =>
      Handle.kept_trans (h.2 hw) (h'.2 hw)⟩) h1.entities k2
  · obtain ⟨n1, i1, e1, k1, w1⟩ := h1.objects
    obtain ⟨n2, i2, e2, k2, w2⟩ := h2.objects
    rw [ev] at k2 w2
    by_cases h13 : Version.r13 ≤ d.version
    · rw [if_pos h13] at k1 k2 ⊢
      rw [e1, List.filter_append, forall₂_all (fun a b h => by rw [Object.kept_kind h.1]) k1] at k2
      obtain ⟨j1, j2, q1, q2, rfl⟩ := forall₂_split k2
      refine ⟨n2 ++ j1, j2, by rw [e2, List.append_assoc], Forall₂.trans (fun a b c h h' =>
        ⟨Object.kept_trans h.1 h'.1, Handle.kept_trans h.2 h'.2⟩) k1 q2, fun x hx => ?_⟩
      rcases List.mem_append.mp hx with hx | hx
      · exact w2 x hx
      · obtain ⟨y, hy, hyx⟩ := forall2_origin q1 hx
        obtain ⟨s, hs⟩ := w1 y (List.mem_filter.mp hy).1
        exact ⟨s, Object.kept_trans hs hyx.1⟩
    · rw [if_neg h13] at k1 k2 ⊢
      cases k2
      exact ⟨n2, [], e2, .nil, w2⟩
  · rw [h2.thumbnail, h1.thumbnail, ev]
    split <;> rfl

end Dxf
