import Verif.Spec.Again
import Verif.Lemmas.Steady
import Verif.Lemmas.Lookup

/-! Round trips one after another. -/

namespace Dxf

/-! ### Entries -/

theorem ExtGroup.kept_eq {gs : List ExtGroup} (h : ∀ g ∈ gs, ExtItem.NoEmptyList g.items) :
    ExtGroup.kept gs = gs.filter fun g => !g.items.isEmpty := by
  unfold ExtGroup.kept
  conv_rhs => rw [← List.map_id (gs.filter fun g => !g.items.isEmpty)]
  refine List.map_congr_left fun g hg => ?_
  rw [ExtItem.pruneList_eq _ (h g (List.mem_filter.mp hg).1)]
  rfl

theorem steady_congr {ds : List Decl} {stmts : List (GCmd ds)} (hs : ∀ g ∈ stmts, Steady [] g)
    {v : Version} {a b : Rec ds} {i : Nat} (h : a i = b i) :
    (Representable stmts v a i → Representable stmts v b i) ∧
    (Written stmts v a i ↔ Written stmts v b i) := by
  have same : ∀ g ∈ stmts, g.writes i = true → g.holds v a = g.holds v b := by
    intro g hg hw
    have := hs g hg
    unfold Steady at this
    unfold GCmd.writes at hw
    unfold GCmd.holds
    split at this
    · rename_i j w hj
      rw [hj] at hw
      have e : j = i := by simpa using hw
      subst e
      rcases this.1 with k | ⟨hm, k⟩
      · rw [k a b h]
      · rw [k a b nofun]
    · rename_i hn
      split at hw
      · rename_i j w hj
        exact absurd hj (hn j w)
      · cases hw
  have wr : ∀ g : GCmd ds, ∀ w, g.cmd = .field i w → g.writes i = true := by
    intro g w h
    unfold GCmd.writes
    rw [h]
    exact beq_self_eq_true i
  refine ⟨fun hr g hg hh w hc => ?_, ?_, ?_⟩
  · rw [← h]
    exact hr g hg ((same g hg (wr g w hc)).trans hh) w hc
  · rintro ⟨g, hg, h1, h2⟩
    exact ⟨g, hg, h1, (same g hg h1).symm.trans h2⟩
  · rintro ⟨g, hg, h1, h2⟩
    exact ⟨g, hg, h1, (same g hg h1).trans h2⟩

theorem Entry.Kept.trans {ds : List Decl} {stmts : List (GCmd ds)} {G skip : List Nat}
    (hs : ∀ i, i ∉ skip → ∀ g ∈ stmts, g.writes i = true → Steady G g) {v : Version}
    {a b b' c : Entry ds} (h1 : Entry.Kept stmts skip v a b) (h2 : Entry.Kept stmts skip v b' c)
    (hG : .r2000 ≤ v → ∀ j ∈ G, b.fields j = a.fields j)
    (hf : b'.fields = b.fields) (he : b'.ext = b.ext) (hx : .r2000 ≤ v → b'.xdata = b.xdata) :
    Entry.Kept stmts skip v a c := by
  obtain ⟨f1, e1, x1⟩ := h1
  obtain ⟨f2, e2, x2⟩ := h2
  rw [hf] at f2
  rw [he] at e2
  refine ⟨fun i hi hr => again (hs i hi) hr (f1 i hi hr) hG (f2 i hi), fun hn => ?_, ?_⟩
  · have := e1 hn
    rw [e2 (by
      rw [this]
      split
      · exact fun g hg => hn g (List.mem_filter.mp hg).1
      · exact nofun), this]
    split
    · rw [List.filter_filter]
      simp only [Bool.and_self]
    · rfl
  · rw [x2]
    split
    · rename_i hv
      rw [hx hv, x1, if_pos hv]
    · rfl

/-! ### Table entries -/

theorem Entry.Kept.of_restored {K : TableKind} {v : Version} {wh : Bool} {skip : List Nat} {i : Nat}
    {a b c : TableItem K} (h : Restored K v wh skip a b) (hf : ∀ j, j ≠ i → c.fields j = b.fields j)
    (he : c.ext = b.ext) (hx : c.xdata = b.xdata) : Entry.Kept (K.all wh) (i :: skip) v a c := by
  refine ⟨fun j hj hr => ?_, fun hn => ?_, hx.trans h.2.2⟩
  · rw [hf j fun e => hj (e ▸ List.mem_cons_self), h.1 j (fun e => hj (List.mem_cons_of_mem _ e)) hr]
  · rw [he, h.2.1, ExtGroup.kept_eq hn]

theorem TName.set_fields {t : TName} (x : t.Item) (h : Handle) (j : Nat) (hj : j ≠ 1) :
    (t.setHandle x h).fields j = x.fields j := by
  cases t <;> exact Rec.set_ne _ _ hj

theorem TName.set_ext {t : TName} (x : t.Item) (h : Handle) : (t.setHandle x h).ext = x.ext := by
  cases t <;> rfl

theorem TName.set_xdata {t : TName} (x : t.Item) (h : Handle) :
    (t.setHandle x h).xdata = x.xdata := by
  cases t <;> rfl

/-- What getting a handle leaves as it is. -/
theorem TName.Handled.same {t : TName} {x y : t.Item} (h : t.Handled x y) :
    (∀ j, j ≠ 1 → y.fields j = x.fields j) ∧ y.ext = x.ext ∧ y.xdata = x.xdata := by
  unfold TName.Handled at h
  split at h
  · obtain ⟨h, rfl⟩ := h
    exact ⟨t.set_fields x h, t.set_ext x h, t.set_xdata x h⟩
  · subst h
    exact ⟨fun _ _ => rfl, rfl, rfl⟩

theorem FWrite.fits_bool {t : Ty} (ht : t = .bool) (w : FWrite t) (a b : t.den) : w.Fits a b := by
  cases w with
  | one code c => cases c <;> first | trivial | cases ht
  | many => cases ht
  | axes => cases ht
  | points => cases ht
  | lw => cases ht

theorem TName.kept_of {t : TName} {v : Version} {wh : Bool} {a b c : t.Item}
    (h : t.Restored v wh a b) (hc : t.Handled b c) : t.Kept v wh a c := by
  obtain ⟨hf, he, hx⟩ := hc.same
  cases t
  case layer =>
    refine ⟨Entry.Kept.of_restored h.1 hf he hx, fun hp => ?_⟩
    rw [hf 3 (by decide), hf 9 (by decide)]
    exact h.2 hp
  case viewPort =>
    have := Entry.Kept.of_restored h hf he hx
    change Entry.Kept (Tables.viewPort.all wh) _ v a c
    split
    · exact ⟨fun i hi => this.1 i fun h => hi (by rw [List.mem_singleton.mp h]; exact .head _),
        this.2⟩
    · exact this
  all_goals exact Entry.Kept.of_restored h hf he hx

theorem TName.kept_trans {t : TName} {v : Version} {wh : Bool} {a b c : t.Item}
    (h1 : t.Kept v wh a b) (h2 : t.Kept v wh b c) : t.Kept v wh a c := by
  have hs : ∀ skip : List Nat, ∀ i, i ∉ skip → ∀ g ∈ t.kind.all wh, g.writes i = true →
      Steady t.guards g := fun _ _ _ g hg _ => steady_table t wh g hg
  cases t
  case layer =>
    refine ⟨h1.1.trans (hs _) h2.1 (fun _ => nofun) rfl rfl fun _ => rfl, fun hp => ?_⟩
    obtain ⟨e3, e9⟩ := h1.2 hp
    have := h2.2 (by rw [e3]; exact hp)
    rw [e3, e9] at this
    exact this
  case view =>
    refine Entry.Kept.trans (hs _) h1 h2 (fun hv j hj => ?_) rfl rfl fun _ => rfl
    have hj : j = 14 := by simpa [TName.guards] using hj
    subst hj
    have := h1.1 14 (by decide) fun _ _ _ w _ => FWrite.fits_bool rfl w _ _
    rwa [if_pos ⟨{ cmd := .field 14 (.one 72 .asI16), min := (some .r2000) },
      List.mem_of_getElem? (i := 16) rfl, rfl, by
        change (decide (_ ≤ v) && true && true) = true
        rw [decide_eq_true hv]
        rfl⟩] at this
  case viewPort =>
    change Entry.Kept (Tables.viewPort.all wh) _ v a b at h1
    change Entry.Kept (Tables.viewPort.all wh) _ v b c at h2
    change Entry.Kept (Tables.viewPort.all wh) _ v a c
    by_cases h7 : Version.r2007 ≤ v
    · rw [if_pos h7] at h1 h2 ⊢
      refine Entry.Kept.trans (G := []) (fun i hi g hg hw => ?_) h1 h2 (fun _ => nofun) rfl rfl
        fun _ => rfl
      rcases steady_viewPort wh g hg with h | ⟨j, hj, hw'⟩
      · exact h
      · have : i = j := by
          unfold GCmd.writes at hw hw'
          split at hw
          · rename_i hcm
            rw [hcm] at hw'
            simp only [beq_iff_eq] at hw hw'
            omega
          · cases hw
        subst this
        exact absurd (List.mem_cons_of_mem _ hj) hi
    · rw [if_neg h7] at h1 h2 ⊢
      refine Entry.Kept.trans (hs _) h1 h2 (fun hv j hj => ?_) rfl rfl fun _ => rfl
      have hj : j = 28 := by simpa [TName.guards] using hj
      subst hj
      have := h1.1 28 (by decide) fun _ _ _ w _ => FWrite.fits_bool rfl w _ _
      rwa [if_pos ⟨{ cmd := .field 28 (.one 65 .asI16), min := (some .r2000), max := (some .r2004) },
        List.mem_of_getElem? (i := 31) rfl, rfl, by
          change (decide (_ ≤ v) && decide (v ≤ _) && true) = true
          revert hv h7
          cases v <;> decide⟩] at this
  all_goals exact Entry.Kept.trans (hs _) h1 h2 (fun _ => nofun) rfl rfl fun _ => rfl

/-! ### Entities -/

theorem EName.ChildKept.trans {k : EName} {skip : List Nat} {v : Version} {wh : Bool}
    {a b c : Rec k.decls} (h1 : k.ChildKept skip v wh a b) (h2 : k.ChildKept skip v wh b c) :
    k.ChildKept skip v wh a c := by
  intro i hi hs hr
  have e : ∀ r : Rec k.decls, Rec.bare (ds := k.kind.spec) r i = r i := fun r =>
    if_neg (Nat.not_lt.mpr hi)
  have := again (fun g hg _ => steady_entity k 0 wh g hg) (b := Rec.bare (ds := k.kind.spec) b) (c := Rec.bare (ds := k.kind.spec) c) hr
    (by rw [e, e, h1 i hi hs hr]) (fun _ => nofun) (fun h => by
      rw [e, e, h2 i hi hs h])
  rwa [e, e] at this

/-- The specific fields of an entity that was written with other common fields. -/
theorem EName.childKept_of {k : EName} {skip : List Nat} {v : Version} {wh : Bool}
    {a a' : Rec k.decls} {ext : List ExtGroup} {xs : List XData} {b : Entry k.decls}
    (h : k.Restored 0 v wh ⟨a', ext, xs⟩ b) (hp : k.packed = [])
    (ha : ∀ i, 18 ≤ i → i ∉ skip → a' i = a i) (hl : ∀ i, i ∈ k.lost v → i ∈ skip) :
    k.ChildKept skip v wh a (Rec.bare (ds := k.kind.spec) b.fields) := by
  intro i hi hs hr
  have e : ∀ r : Rec k.decls, Rec.bare (ds := k.kind.spec) r i = r i := fun r =>
    if_neg (Nat.not_lt.mpr hi)
  have hc := steady_congr (steady_entity k 0 wh) (v := v)
    (show Rec.bare (ds := k.kind.spec) a i = a' i by rw [e, ha i hi hs])
  have := h.1 i (fun h => hs (hl i h)) (by rw [hp]; exact List.not_mem_nil) (hc.1 hr)
  rw [e, this]
  change (if Written _ v a' i then a' i else _) = _
  rw [ha i hi hs]
  by_cases hw : Written (k.statements 0 wh) v a' i
  · rw [if_pos hw, if_pos (hc.2.mpr hw)]
  · rw [if_neg hw, if_neg fun h => hw (hc.2.mp h)]

theorem Forall₂.trans {α : Type} {R : α → α → Prop} (hR : ∀ a b c, R a b → R b c → R a c)
    {l1 l2 l3 : List α} (h1 : List.Forall₂ R l1 l2) (h2 : List.Forall₂ R l2 l3) :
    List.Forall₂ R l1 l3 := by
  induction h1 generalizing l3 with
  | nil =>
    cases h2
    exact .nil
  | cons h _ ih =>
    cases h2 with
    | cons h' t => exact .cons (hR _ _ _ h h') (ih t)

theorem Extra.Kept.trans {v : Version} {wh : Bool} {k : EName} {x y z : Extra}
    (h1 : Extra.Kept v wh k x y) (h2 : Extra.Kept v wh k y z) : Extra.Kept v wh k x z := by
  cases k
  case «attribute» => exact ⟨h2.1, h2.2.1, fun hv => (h1.2.2 hv).trans (h2.2.2 hv)⟩
  case attributeDefinition => exact ⟨h2.1, h2.2.1, fun hv => (h1.2.2 hv).trans (h2.2.2 hv)⟩
  case insert => exact ⟨h2.1, Forall₂.trans (fun _ _ _ => EName.ChildKept.trans) h1.2 h2.2⟩
  case polyline => exact ⟨h2.1, Forall₂.trans (fun _ _ _ => EName.ChildKept.trans) h1.2 h2.2⟩
  all_goals exact h2

theorem Extra.Kept.empty {v : Version} {wh : Bool} {k : EName} {x y : Extra}
    (h : Extra.Kept v wh k x y) (hk : k = .insert) : y.atts.isEmpty = x.atts.isEmpty := by
  subst hk
  have := h.2.length_eq
  cases hx : x.atts <;> cases hy : y.atts <;> rw [hx, hy] at this <;> first | rfl | cases this

theorem mTextPairs_nil {v : Version} {wh : Bool} {c c' : Rec commonDecls} {m m' : MTextRec}
    (h : mTextPairs v wh c m = []) : mTextPairs v wh c' m' = [] := by
  unfold mTextPairs EName.pairs at h ⊢
  split at h
  · cases h
  · rename_i hv
    rw [if_neg hv]

theorem Extra.Kept.post {v : Version} {wh : Bool} {k : EName} {n : Nat} {a b : Entry k.decls}
    {x y : Extra} (h : Extra.Kept v wh k x y)
    (hp : Entity.post v wh ⟨⟨k, n, a⟩, x⟩ = []) : Entity.post v wh ⟨⟨k, n, b⟩, y⟩ = [] := by
  cases k
  case «attribute» => exact mTextPairs_nil hp
  case attributeDefinition => exact mTextPairs_nil hp
  case insert =>
    have e := h.empty rfl
    obtain ⟨-, h⟩ := h
    change x.atts.flatMap _ ++ _ = [] at hp
    change y.atts.flatMap _ ++ _ = []
    cases hx : x.atts with
    | nil =>
      rw [hx] at h
      cases hy : y.atts with
      | nil => rfl
      | cons _ _ =>
        rw [hy] at h
        cases h
    | cons a as =>
      rw [hx] at hp
      have := (List.append_eq_nil_iff.mp hp).2
      cases this
  case polyline =>
    have := (List.append_eq_nil_iff.mp hp).2
    cases this
  all_goals rfl

theorem Entity.kept_num {v : Version} {wh : Bool} {e e' : Entity} (h : e.Kept v wh e') :
    e'.num = e.num := by
  obtain ⟨b, y, rfl, -, -, hx⟩ := h
  obtain ⟨⟨k, n, a⟩, x⟩ := e
  cases k
  case insert =>
    have := hx.empty rfl
    change (bif y.atts.isEmpty then 0 else 1) = (bif x.atts.isEmpty then 0 else 1)
    rw [this]
  all_goals rfl

theorem Entity.kept_trans {v : Version} {wh : Bool} {e e1 e2 : Entity} (h1 : e.Kept v wh e1)
    (h2 : e1.Kept v wh e2) : e.Kept v wh e2 := by
  have hn := Entity.kept_num h1
  obtain ⟨b, y, rfl, k1, p1, x1⟩ := h1
  obtain ⟨c, z, rfl, k2, p2, x2⟩ := h2
  rw [hn] at k2
  refine ⟨c, z, rfl, k1.trans (fun _ _ g hg _ => steady_entity _ _ _ g hg) k2 (fun _ => nofun) rfl rfl fun hv => ?_,
    fun i hi => (p2 i hi).trans (p1 i hi), x1.trans x2⟩
  have hb := k1.2.2
  rw [if_pos hv] at hb
  change Entity.ownXData v wh _ = b.xdata
  unfold Entity.ownXData
  split
  · rfl
  · rename_i hne
    rw [hb]
    change [] = Entity.ownXData v wh e
    unfold Entity.ownXData
    rw [if_neg fun h => hne (Extra.Kept.post x1 h)]

theorem Extra.unhandled_kept {v : Version} {wh : Bool} {k : EName} {x y z : Extra}
    (h : Extra.Kept v wh k x y) (he : z.unhandled = y.unhandled) : Extra.Kept v wh k x z := by
  have ea : z.atts.map Att.fields = y.atts.map Att.fields := by
    have := congrArg (fun x : Extra => x.atts.map Att.fields) he
    simpa [Extra.unhandled, Function.comp_def] using this
  have ev : z.verts.map Vert.fields = y.verts.map Vert.fields := by
    have := congrArg (fun x : Extra => x.verts.map Vert.fields) he
    simpa [Extra.unhandled, Function.comp_def] using this
  have em : z.mtext = y.mtext := by
    change z.unhandled.mtext = y.unhandled.mtext
    rw [he]
  have na : y.atts = [] → z.atts = [] := fun h => by
    rw [h] at ea
    exact List.map_eq_nil_iff.mp ea
  have nv : y.verts = [] → z.verts = [] := fun h => by
    rw [h] at ev
    exact List.map_eq_nil_iff.mp ev
  cases k
  case «attribute» => exact ⟨na h.1, nv h.2.1, by rw [em]; exact h.2.2⟩
  case attributeDefinition => exact ⟨na h.1, nv h.2.1, by rw [em]; exact h.2.2⟩
  case insert =>
    refine ⟨nv h.1, ?_⟩
    have h2 := h.2
    have := (List.forall₂_map_right_iff (f := Att.fields) (R := fun (a : Att) b =>
      EName.attribute.ChildKept (EName.attribute.lost v) v wh a.fields b)).mpr h2
    have this := (congrArg _ ea).mpr this
    exact List.forall₂_map_right_iff.mp this
  case polyline =>
    refine ⟨na h.1, ?_⟩
    have h2 := h.2
    have := (List.forall₂_map_right_iff (f := Vert.fields) (R := fun (a : Vert) b =>
      EName.vertex.ChildKept [22] v wh a.fields b)).mpr h2
    have this := (congrArg _ ev).mpr this
    exact List.forall₂_map_right_iff.mp this
  all_goals exact ⟨na h.1, nv h.2⟩

theorem mText_kept {v : Version} {wh : Bool} {c : Rec commonDecls} {m m' : MTextRec}
    (h : mTextRestored v wh c m m') (hv : EName.mText.supported v = true) :
    EName.mText.ChildKept (EName.mText.lost v) v wh m m' := by
  unfold mTextRestored at h
  rw [if_pos hv] at h
  obtain ⟨xs, b, h, rfl⟩ := h
  refine EName.childKept_of h rfl (fun i hi _ => ?_) fun _ h => h
  refine (Rec.set_ne _ _ (by omega)).trans ((Rec.set_ne _ _ (by omega)).trans
    ((Rec.set_ne _ _ (by omega)).trans (if_neg (Nat.not_lt.mpr hi))))

theorem Extra.kept_of {v : Version} {wh : Bool} {e : Flat} {x y : Extra}
    (h : Extra.Restored v wh e x y) : Extra.Kept v wh e.kind x y := by
  obtain ⟨k, n, a⟩ := e
  cases k
  case «attribute» =>
    obtain ⟨m, h, rfl⟩ := h
    exact ⟨rfl, rfl, mText_kept h⟩
  case attributeDefinition =>
    obtain ⟨m, h, rfl⟩ := h
    exact ⟨rfl, rfl, mText_kept h⟩
  case insert =>
    obtain ⟨as, h, rfl⟩ := h
    refine ⟨rfl, h.imp ?_⟩
    rintro a _ ⟨b, hb, rfl⟩
    refine EName.childKept_of hb rfl (fun i hi _ => ?_) fun _ h => h
    exact (Rec.set_ne _ _ (by omega)).trans (if_neg (Nat.not_lt.mpr hi))
  case polyline =>
    obtain ⟨vs, h, rfl⟩ := h
    refine ⟨rfl, h.imp ?_⟩
    rintro a _ ⟨b, hb, rfl⟩
    refine EName.childKept_of hb rfl (fun i hi hs => ?_) nofun
    refine (Rec.set_ne _ _ (by omega)).trans ((if_neg (Nat.not_lt.mpr hi)).trans ?_)
    unfold Vert.adjust
    exact Rec.set_ne _ _ fun e => hs (e ▸ List.mem_cons_self)
  all_goals
    cases h
    exact ⟨rfl, rfl⟩

/-- What was restored and then got other handles. -/
theorem Entity.kept_of {v : Version} {wh : Bool} {e f g : Entity} (h : e.Restored v wh f)
    (hk : ∃ c y, g = ⟨⟨f.kind, f.sub, c⟩, y⟩ ∧ (∀ j, j ≠ 0 → c.fields j = f.entry.fields j) ∧
      c.ext = f.entry.ext ∧ c.xdata = f.entry.xdata ∧ y.unhandled = f.extra.unhandled) :
    e.Kept v wh g := by
  obtain ⟨b, hb, x', hx, rfl⟩ := h
  obtain ⟨c, y, rfl, hf, he, hd, hu⟩ := hk
  refine ⟨c, y, rfl, ⟨fun i hi hr => ?_, fun hn => ?_, hd.trans hb.2.2.2⟩, fun i hi => ?_,
    Extra.unhandled_kept (Extra.kept_of hx) hu⟩
  · rw [List.mem_cons, List.mem_append, not_or, not_or] at hi
    rw [hf i hi.1]
    exact hb.1 i hi.2.1 hi.2.2 hr
  · rw [he]
    change b.ext = _
    rw [hb.2.2.1, ExtGroup.kept_eq hn]
  · have : i ≠ 0 := fun h => e.kind.zero_packed (h ▸ hi)
    rw [hf i this]
    exact hb.2.1 i hi

theorem Entity.kept_handled {v : Version} {wh : Bool} {e f g : Entity} (h : e.Restored v wh f)
    (hk : f.Handled g) : e.Kept v wh g := by
  refine Entity.kept_of h ?_
  obtain ⟨⟨k, n, a⟩, x⟩ := f
  obtain ⟨⟨k', n', a'⟩, x'⟩ := g
  unfold Entity.Handled at hk
  split at hk
  · obtain ⟨h, e1, e2⟩ := hk
    cases e1
    exact ⟨_, _, rfl, fun j hj => Rec.set_ne _ _ hj, rfl, rfl, e2⟩
  · cases hk
    exact ⟨_, _, rfl, fun _ _ => rfl, rfl, rfl, rfl⟩

theorem Entity.kept_set {v : Version} {wh : Bool} {e f : Entity} (h : e.Restored v wh f)
    (hd : Handle) : e.Kept v wh (f.setHandle hd) :=
  Entity.kept_of h ⟨_, _, rfl, fun _ hj => Rec.set_ne _ _ hj, rfl, rfl, rfl⟩

theorem Entity.kept_kind {v : Version} {wh : Bool} {e f : Entity} (h : e.Kept v wh f) :
    f.kind = e.kind := by
  obtain ⟨b, x, rfl, -⟩ := h
  rfl

/-! ### Blocks -/

theorem forall₂_all {α : Type} {R : α → α → Prop} {p : α → Bool} (hR : ∀ a b, R a b → p b = p a)
    {l l' : List α} (h : List.Forall₂ R (l.filter p) l') : l'.filter p = l' := by
  have : ∀ l : List α, (∀ a ∈ l, p a = true) → ∀ l', List.Forall₂ R l l' → ∀ b ∈ l', p b = true := by
    intro l hl l' h
    induction h with
    | nil => exact nofun
    | cons h _ ih =>
      intro b hb
      rcases List.mem_cons.mp hb with rfl | hb
      · rw [hR _ _ h]
        exact hl _ List.mem_cons_self
      · exact ih (fun a ha => hl a (List.mem_cons_of_mem _ ha)) b hb
  exact List.filter_eq_self.mpr (this _ (fun a ha => (List.mem_filter.mp ha).2) _ h)

theorem Block.kept_of {v : Version} {wh : Bool} {a b c : Block} (h : a.Restored v wh b)
    (hc : b.Handled c) : a.Kept v wh c := by
  obtain ⟨es, hes, hc⟩ := hc
  have key : (∀ j, j ≠ 0 → c.entry.fields j = b.entry.fields j) ∧ c.entry.ext = b.entry.ext ∧
      c.entry.xdata = b.entry.xdata ∧ c.entities = es := by
    split at hc
    · obtain ⟨h, rfl⟩ := hc
      exact ⟨fun j hj => Rec.set_ne _ _ hj, rfl, rfl, rfl⟩
    · subst hc
      exact ⟨fun _ _ => rfl, rfl, rfl, rfl⟩
  refine ⟨Entry.Kept.of_restored h.1 key.1 key.2.1 key.2.2.1, ?_⟩
  rw [key.2.2.2]
  have h2 := h.2
  generalize (a.entities.filter fun e => e.kind.supported v) = xs at h2
  generalize b.entities = ys at h2 hes
  clear key hc h
  induction h2 generalizing es with
  | nil =>
    cases hes
    exact .nil
  | cons h _ ih =>
    cases hes with
    | cons h' t =>
      obtain ⟨hd, rfl⟩ := h'
      exact .cons (Entity.kept_set h hd) (ih _ t)

theorem Block.kept_trans {v : Version} {wh : Bool} {a b c : Block} (h1 : a.Kept v wh b)
    (h2 : b.Kept v wh c) : a.Kept v wh c := by
  obtain ⟨k1, e1⟩ := h1
  obtain ⟨k2, e2⟩ := h2
  refine ⟨k1.trans (fun _ _ g hg _ => steady_block wh g hg) k2 (fun _ => nofun) rfl rfl fun hv => ?_, ?_⟩
  · have := k1.2.2
    rw [if_pos hv] at this
    exact this.symm
  · rw [forall₂_all (fun a b h => by rw [Entity.kept_kind h]) e1] at e2
    exact Forall₂.trans (R := Entity.Kept v wh) (fun _ _ _ h => Entity.kept_trans h) e1 e2

/-! ### Objects -/

theorem F64.asI32_ofInt (n : I32) : (F64.ofInt n.toInt).asI32 = n := by
  have h1 := n.toInt_lt
  have h2 := n.le_toInt
  unfold F64.asI32
  rw [toIntSat_ofInt _ _ _ (by omega), show max (-2 ^ 31) (min (2 ^ 31 - 1) n.toInt) = n.toInt by
      omega, BitVec.ofInt_toInt]

theorem OName.listsKept_of (k : OName) (x : OExtra) : k.ListsKept x (k.listsBack x) := by
  cases k <;> rfl

theorem OName.ListsKept.trans {k : OName} {x y z : OExtra} (h1 : k.ListsKept x y)
    (h2 : k.ListsKept y z) : k.ListsKept x z := by
  cases k
  case spatialFilter => exact Eq.trans h2 h1
  case geoData =>
    cases h1
    cases h2
    simp only [OName.ListsKept, OName.listsBack, List.map_map, Function.comp_def, F64.asI32_ofInt]
  all_goals
    cases h1
    cases h2
    rfl

theorem Object.kept_of {v : Version} {o p q : Object} (h : o.Restored v p) (hq : p.Handled q) :
    o.Kept v q := by
  obtain ⟨b, hb, rfl⟩ := h
  have key : ∃ c, q = ⟨o.kind, c, o.kind.listsBack o.extra⟩ ∧
      (∀ j, j ≠ 0 → c.fields j = b.fields j) ∧ c.ext = b.ext ∧ c.xdata = b.xdata := by
    unfold Object.Handled at hq
    split at hq
    · obtain ⟨h, rfl⟩ := hq
      exact ⟨_, rfl, fun j hj => Rec.set_ne _ _ hj, rfl, rfl⟩
    · subst hq
      exact ⟨b, rfl, fun _ _ => rfl, rfl, rfl⟩
  obtain ⟨c, rfl, hf, he, hx⟩ := key
  refine ⟨c, _, rfl, ⟨fun i hi hr => ?_, fun hn => ?_, hx.trans hb.2.2⟩, OName.listsKept_of _ _⟩
  · rw [List.mem_cons, not_or] at hi
    rw [hf i hi.1]
    exact hb.1 i hi.2 hr
  · rw [he, hb.2.1, ExtGroup.kept_eq hn]

theorem Object.kept_trans {v : Version} {o p q : Object} (h1 : o.Kept v p) (h2 : p.Kept v q) :
    o.Kept v q := by
  obtain ⟨b, y, rfl, k1, x1⟩ := h1
  obtain ⟨c, z, rfl, k2, x2⟩ := h2
  exact ⟨c, z, rfl, k1.trans (fun _ _ g hg _ => steady_object _ g hg) k2 (fun _ => nofun) rfl rfl fun _ => rfl,
    x1.trans x2⟩

theorem Object.kept_kind {v : Version} {e f : Object} (h : e.Kept v f) : f.kind = e.kind := by
  obtain ⟨b, x, rfl, -⟩ := h
  rfl

end Dxf
