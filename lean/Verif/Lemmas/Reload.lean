import Verif.Lemmas.AssembleFile

/-! The handles of a loaded drawing, and that there are enough of them. -/

namespace Dxf

/-! ### Handles come back or are null -/

theorem TName.handle_restored {t : TName} {v : Version} {wh : Bool} {a b : t.Item}
    (h : t.Restored v wh a b) : t.handle b = t.handle a ∨ t.handle b = 0#64 := by
  have key : ∀ skip, 1 ∉ skip → tyAt t.kind.decls 1 = .handle → Dxf.Restored t.kind v wh skip a b →
      (b.fields 1 = a.fields 1 ∨ b.fields 1 = Rec.dflt t.kind.decls 1) := by
    intro skip hs ht h
    have := h.1 1 hs (representable_simple (.inl ht) _ _ _)
    split at this
    · exact .inl this
    · exact .inr this
  cases t
  case layer => exact key [3, 9] (by decide) rfl h.1
  all_goals exact key [] (by decide) rfl h

theorem Block.handle_restored {v : Version} {wh : Bool} {a b : Block} (h : a.Restored v wh b) :
    b.handle = a.handle ∨ b.handle = 0#64 := by
  have := h.1.1 0 (by decide) (representable_simple (.inl rfl) _ _ _)
  split at this
  · exact .inl this
  · exact .inr this

theorem EName.zero_lost (k : EName) (v : Version) : 0 ∉ k.lost v := by
  cases k <;> unfold lost <;> repeat (first | split | decide)

theorem EName.zero_packed (k : EName) : 0 ∉ k.packed := by
  cases k <;> decide

theorem Entity.handle_restored {v : Version} {wh : Bool} {a b : Entity} (h : a.Restored v wh b) :
    b.handle = a.handle ∨ b.handle = 0#64 := by
  obtain ⟨⟨k, n, e⟩, x⟩ := a
  obtain ⟨e', h, x', -, rfl⟩ := h
  have := h.1 0 (k.zero_lost v) k.zero_packed (representable_simple (.inl rfl) _ _ _)
  split at this
  · exact .inl this
  · exact .inr this

theorem OName.zero_lost (k : OName) (v : Version) : 0 ∉ k.lost v := by
  cases k <;> unfold lost <;> repeat (first | split | decide)

theorem Object.handle_restored {v : Version} {a b : Object} (h : a.Restored v b) :
    b.handle = a.handle ∨ b.handle = 0#64 := by
  obtain ⟨k, e, x⟩ := a
  obtain ⟨e', h, rfl⟩ := h
  have := h.1 0 (k.zero_lost v) (representable_simple (.inl rfl) _ _ _)
  split at this
  · exact .inl this
  · exact .inr this

/-- The non-null handles of what was read are among those of what was written. -/
theorem count_restored {α : Type} {f : α → Handle} {R : α → α → Prop}
    (hR : ∀ a b, R a b → f b = f a ∨ f b = 0#64) {as bs : List α} (h : List.Forall₂ R as bs)
    (x : Handle) : (bs.flatMap fun b => (f b).proper).count x ≤ (as.map f).count x := by
  induction h with
  | nil => simp
  | @cons a b as bs h _ ih =>
    rw [List.flatMap_cons, List.map_cons, List.count_append, List.count_cons]
    rcases hR a b h with e | e
    · have : (f b).proper.count x ≤ if f a == x then 1 else 0 := by
        unfold Handle.proper
        rw [e]
        split
        · simp
        · rw [List.count_singleton]
      omega
    · rw [Handle.proper, if_pos e, List.count_nil]
      omega

/-! ### Names of layers -/

theorem FWrite.fits_strs {t : Ty} (ht : t = .list .str) (w : FWrite t) (a b : t.den) : w.Fits a b := by
  cases w with
  | one code c => cases c <;> first | trivial | cases ht
  | many code c =>
    cases ht
    intro x _
    cases c <;> trivial
  | axes => cases ht
  | points => cases ht
  | lw => trivial

theorem Object.layers_restored {v : Version} {a b : Object} (h : a.Restored v b) :
    b.layers.length ≤ a.layers.length := by
  obtain ⟨k, e, x⟩ := a
  obtain ⟨e', h, rfl⟩ := h
  cases k
  case layerFilter =>
    have := h.1 2 (show 2 ∉ ([] : List Nat) by decide) fun _ _ _ w _ => FWrite.fits_strs rfl w _ _
    change (e'.fields 2 : List Str).length ≤ (e.fields 2 : List Str).length
    split at this
    · rw [this]
    · rw [this]
      exact Nat.zero_le _
  case layerIndex =>
    have := h.1 3 (show 3 ∉ ([] : List Nat) by decide) fun _ _ _ w _ => FWrite.fits_strs rfl w _ _
    change (e'.fields 3 : List Str).length ≤ (e.fields 3 : List Str).length
    split at this
    · rw [this]
    · rw [this]
      exact Nat.zero_le _
  all_goals exact Nat.zero_le _

theorem Entity.children_restored {v : Version} {wh : Bool} {a b : Entity} (h : a.Restored v wh b) :
    b.extra.atts.length + b.extra.verts.length ≤ a.extra.atts.length + a.extra.verts.length := by
  obtain ⟨⟨k, n, e⟩, x⟩ := a
  obtain ⟨e', -, x', h, rfl⟩ := h
  cases k
  case insert =>
    obtain ⟨as, h, rfl⟩ := h
    have := h.length_eq
    change as.length + 0 ≤ _
    omega
  case polyline =>
    obtain ⟨vs, h, rfl⟩ := h
    have := h.length_eq
    change 0 + vs.length ≤ _
    omega
  case «attribute» =>
    obtain ⟨m, -, rfl⟩ := h
    exact Nat.zero_le _
  case attributeDefinition =>
    obtain ⟨m, -, rfl⟩ := h
    exact Nat.zero_le _
  all_goals
    cases h
    exact Nat.zero_le _

theorem sum_le {α β : Type} {R : α → β → Prop} {f : α → Nat} {g : β → Nat}
    (hR : ∀ a b, R a b → g b ≤ f a) {as : List α} {bs : List β} (h : List.Forall₂ R as bs) :
    (bs.map g).sum ≤ (as.map f).sum := by
  induction h with
  | nil => simp
  | @cons a b as bs h _ ih =>
    have := hR a b h
    rw [List.map_cons, List.map_cons, List.sum_cons, List.sum_cons]
    omega

theorem sum_filter {α : Type} (p : α → Bool) (f : α → Nat) (as : List α) :
    ((as.filter p).map f).sum ≤ (as.map f).sum := by
  induction as with
  | nil => simp
  | cons a as ih =>
    rw [List.filter_cons]
    split
    · rw [List.map_cons, List.map_cons, List.sum_cons, List.sum_cons]
      omega
    · rw [List.map_cons, List.sum_cons]
      omega

theorem count_filter {α : Type} (p : α → Bool) (f : α → Handle) (as : List α) (x : Handle) :
    ((as.filter p).map f).count x ≤ (as.map f).count x :=
  (List.filter_sublist.map f).count_le x

namespace Drawing

variable {Img : Type} {codec : ImageCodec Img} {h0 : Header} {d p : Drawing Img}

theorem filed_length (d : Drawing Img) (t : TName) : (d.filed t).length ≤ (d.tables t).length := by
  unfold filed
  split
  · exact Nat.zero_le _
  · exact Nat.le_refl _

theorem filed_count (d : Drawing Img) (t : TName) (x : Handle) :
    ((d.filed t).map t.handle).count x ≤ ((d.tables t).map t.handle).count x := by
  unfold filed
  split
  · exact Nat.zero_le _
  · exact Nat.le_refl _

theorem demand_restored (h : d.Restored h0 p) : p.demand ≤ d.demand := by
  have h1 : ∀ t, (p.tables t).length ≤ (d.tables t).length := fun t =>
    Nat.le_trans (Nat.le_of_eq (h.tables t).length_eq.symm) (d.filed_length t)
  have e1 : (TName.all.map fun t => 2 * (p.tables t).length).sum ≤
      (TName.all.map fun t => 2 * (d.tables t).length).sum :=
    sum_le (R := fun a b => a = b) (by rintro t _ rfl; have := h1 t; omega)
      (List.forall₂_same.mpr fun _ _ => rfl)
  have e2 := sum_le (f := fun b : Block => 5 + 5 * b.entities.length)
    (g := fun b : Block => 5 + 5 * b.entities.length) (fun a b (h : Block.Restored _ _ a b) => by
      have e := h.2.length_eq
      have := List.length_filter_le (fun e : Entity => e.kind.supported d.version) a.entities
      omega) h.blocks
  have e3 := sum_le (f := fun e : Entity => 18 + e.extra.atts.length + e.extra.verts.length)
    (g := fun e : Entity => 18 + e.extra.atts.length + e.extra.verts.length)
    (fun a b (h : Entity.Restored _ _ a b) => by
      have := Entity.children_restored h
      omega) h.entities
  have e3' := sum_filter (fun e : Entity => e.kind.supported d.version)
    (fun e : Entity => 18 + e.extra.atts.length + e.extra.verts.length) d.entities
  have e4 := sum_le (f := fun o : Object => 7 + 2 * o.layers.length)
    (g := fun o : Object => 7 + 2 * o.layers.length)
    (fun a b (h : Object.Restored _ a b) => by
      have := Object.layers_restored h
      omega) h.objects
  have e4' : ((if .r13 ≤ d.version then d.objects.filter fun o => o.kind.supported d.version
      else []).map fun o : Object => 7 + 2 * o.layers.length).sum ≤
      (d.objects.map fun o : Object => 7 + 2 * o.layers.length).sum := by
    split
    · exact sum_filter _ _ _
    · exact Nat.zero_le _
  unfold demand
  omega

theorem handles_restored (h : d.Restored h0 p) (x : Handle) :
    p.fileHandles.count x ≤ d.handles.count x := by
  have h1 : ∀ t, ((p.tables t).flatMap fun y => (t.handle y).proper).count x ≤
      ((d.tables t).map t.handle).count x := fun t =>
    Nat.le_trans (count_restored (f := t.handle) (fun _ _ => TName.handle_restored) (h.tables t) x)
      (d.filed_count t x)
  have h2 := count_restored (f := Block.handle) (fun _ _ => Block.handle_restored) h.blocks x
  have h3 := Nat.le_trans (count_restored (f := Entity.handle) (fun _ _ => Entity.handle_restored) h.entities x)
    (count_filter _ _ _ x)
  have h4 : (p.objects.flatMap fun o => o.handle.proper).count x ≤
      (d.objects.map Object.handle).count x := by
    refine Nat.le_trans (count_restored (f := Object.handle) (fun _ _ => Object.handle_restored) h.objects x) ?_
    split
    · exact count_filter _ _ _ x
    · exact Nat.zero_le _
  unfold fileHandles handles
  simp only [List.count_append, tables_count]
  have := h1 .appId
  have := h1 .blockRecord
  have := h1 .dimStyle
  have := h1 .lineType
  have := h1 .layer
  have := h1 .style
  have := h1 .ucs
  have := h1 .view
  have := h1 .viewPort
  omega

theorem next_restored (h : d.Restored h0 p) : p.next = d.next := by
  have := h.header 141 (representable_simple (.inl rfl) _ _ _)
  rw [if_pos (Header.written_next _ _)] at this
  exact this

/-! ### Success -/

theorem affords_read (d : Drawing Img) (t : TName) (x : t.Item) : Affords 2 d (d.addRead t x) id := by
  unfold addRead
  split
  · refine (affords_add d t x).bind (l := 0) ?_
    rintro ⟨y, d1⟩ -
    exact .pure rfl
  · exact (affords_addNoHandle d t x).mono (by omega)

theorem affords_readBlock (d : Drawing Img) (b : Block) :
    Affords (5 + 5 * b.entities.length) d (d.addReadBlock b) id := by
  unfold addReadBlock
  dsimp only
  split
  · refine (affords_block d b).bind (l := 0) ?_
    rintro ⟨y, d1⟩ -
    exact .pure rfl
  · refine Affords.mono (k := 4 + 5 * b.entities.length + 0)
      ((affords_blockNoHandle d b).bind (l := 0) ?_) (by omega)
    rintro ⟨y, d1⟩ -
    exact .pure rfl

theorem affords_readEntity (d : Drawing Img) (e : Entity) :
    Affords (18 + e.extra.atts.length + e.extra.verts.length) d (d.addReadEntity e) id := by
  unfold addReadEntity
  split
  · refine (affords_entity d e).bind (l := 0) ?_
    rintro ⟨y, d1⟩ -
    exact .pure rfl
  · exact (affords_entityNoHandle d e).mono (by omega)

theorem affords_objectNoHandle (d : Drawing Img) (o : Object) :
    Affords (6 + 2 * o.layers.length) d (d.addObjectNoHandle o) id := by
  have h1 := option_length o.styleName
  have h2 := option_length o.viewName
  intro n hn
  obtain ⟨d2, e2, r2⟩ := affords_all d .layer o.layers _ (hn.mono (by omega) :
    Room (2 * o.layers.length + (6 + n)) d)
  obtain ⟨d3, e3, r3⟩ := affords_all d2 .lineType o.styleName.toList (4 + n) (r2.mono (by omega))
  obtain ⟨d4, e4, r4⟩ := affords_all d3 .style o.styleName.toList (2 + n) (r3.mono (by omega))
  obtain ⟨d5, e5, r5⟩ := affords_all d4 .view o.viewName.toList n (r4.mono (by omega))
  refine ⟨{ d5 with objects := d5.objects ++ [o] }, ?_, r5⟩
  simp only [addObjectNoHandle, e2, e3, e4, e5, bind, Except.bind, pure, Except.pure]

theorem affords_readObject (d : Drawing Img) (o : Object) :
    Affords (7 + 2 * o.layers.length) d (d.addReadObject o) id := by
  unfold addReadObject
  split
  · refine (affords_object d o).bind (l := 0) ?_
    rintro ⟨y, d1⟩ -
    exact .pure rfl
  · exact (affords_objectNoHandle d o).mono (by omega)

theorem affords_fold {α : Type} (f : Drawing Img → α → Except DxfErr (Drawing Img)) (k : α → Nat)
    (h : ∀ d a, Affords (k a) d (f d a) id) (as : List α) (d : Drawing Img) :
    Affords (as.map k).sum d (as.foldlM f d) id := by
  induction as generalizing d with
  | nil => exact .pure rfl
  | cons a as ih =>
    rw [List.foldlM_cons, List.map_cons, List.sum_cons]
    exact (h d a).bind fun d1 _ => ih d1

theorem affords_assemble (p : Drawing Img) : Affords p.demand p.outline p.assemble id := by
  have h1 : Affords (TName.all.map fun t => 2 * (p.tables t).length).sum p.outline
      (p.fill TName.all p.outline) id := by
    refine affords_fold _ _ (fun d t => ?_) _ _
    refine (affords_fold (addRead t) (fun _ => 2) (fun d x => affords_read d t x) _ _).mono ?_
    rw [List.map_const', List.sum_replicate_nat]
    omega
  unfold demand assemble
  intro n hn
  obtain ⟨d1, e1, r1⟩ := h1 _ (by rw [Nat.add_assoc, Nat.add_assoc, Nat.add_assoc] at hn; exact hn)
  obtain ⟨d2, e2, r2⟩ := affords_fold addReadBlock _ affords_readBlock p.blocks d1 _ r1
  obtain ⟨d3, e3, r3⟩ := affords_fold addReadEntity _ affords_readEntity p.entities d2 _ r2
  obtain ⟨d4, e4, r4⟩ := affords_fold addReadObject _ affords_readObject p.objects d3 _ r3
  refine ⟨{ d4 with thumbnail := p.thumbnail }, ?_, r4⟩
  simp only [e1, e2, e3, e4, bind, Except.bind, pure, Except.pure]

/-- Loading what was saved. -/
theorem reload (hfr : Header.Fresh h0) (order : List Str) (ho : 41 + 2 * order.length < 2 ^ 64)
    (hf : d.Faithful codec) (hroom : d.next.toNat + d.demand < 2 ^ 64) :
    ∃ ps p d', d.codePairs codec = .ok ps ∧ load codec h0 order (toStream ps) = (.ok d', []) ∧
      (d.version ≤ .r2004 → loadUntil codec h0 order (toStream ps) = (.ok false, [])) ∧
      d.Restored h0 p ∧ p.Completed d' ∧ Loads p.fileHandles p.outline d' := by
  obtain ⟨ps, p, h1, h2, h3⟩ := load_written hfr order ho d hf
  obtain ⟨d', ha, -⟩ := affords_assemble p 0 (by
    have := demand_restored h2
    have e : p.outline.next = d.next := (show p.outline.next = p.next from rfl).trans (next_restored h2)
    unfold Room
    rw [e]
    omega)
  obtain ⟨hc, hl⟩ := assemble_ok ha
  exact ⟨ps, p, d', h1, (h3 d' ha).1, (h3 d' ha).2, h2, hc, hl⟩

theorem Loads.sound {p d' : Drawing Img} (hl : Loads p.fileHandles p.outline d')
    (hs : d.Sound) (hn : p.next = d.next) (hp : 0#64 < d.next)
    (hc : ∀ x, p.fileHandles.count x ≤ d.handles.count x) : d'.Sound := by
  obtain ⟨fs, h1, h2, h3⟩ := hl.fresh
  have e : p.outline.next = d.next := hn
  have hl' := hl.next
  rw [e] at h2 hl'
  rw [handlesOf_none] at h3
  have hz : ∀ x, (p.outline.handlesOf fun _ => []).count x = 0 := by
    intro x
    rw [handlesOf_none]
    simp [handles, outline, TName.all]
  have key : ∀ x, d'.handles.count x ≤ d.handles.count x + fs.count x := by
    intro x
    have := h3 x
    have := hc x
    have := hz x
    omega
  have hlt : ∀ x ∈ d.handles, x.toNat < d.next.toNat := fun x hx => by
    have := (hs.2 x hx).2
    rwa [BitVec.lt_def] at this
  refine ⟨List.nodup_iff_count.mpr fun x => ?_, fun x hx => ?_⟩
  · have k1 := List.nodup_iff_count.mp hs.1 x
    have k2 := List.nodup_iff_count.mp h1 x
    have k3 := key x
    by_cases hd : x ∈ d.handles
    · have : x ∉ fs := fun hf => by
        have := h2 x hf
        have := hlt x hd
        omega
      have := List.count_eq_zero.mpr this
      omega
    · have := List.count_eq_zero.mpr hd
      omega
  · have k3 := key x
    have := List.count_pos_iff.mpr hx
    by_cases hd : x ∈ d.handles
    · refine ⟨(hs.2 x hd).1, ?_⟩
      have := hlt x hd
      rw [BitVec.lt_def]
      omega
    · have := List.count_eq_zero.mpr hd
      have hf : x ∈ fs := List.count_pos_iff.mp (by omega)
      have := h2 x hf
      rw [BitVec.lt_def] at hp ⊢
      rw [BitVec.lt_def]
      simp only [BitVec.toNat_zero] at *
      omega

end Drawing

/-! ### Styles of multilines -/

open Drawing

theorem styleName_handled {a b : Object} (h : a.Handled b) : b.styleName = a.styleName := by
  unfold Object.Handled at h
  split at h
  · obtain ⟨hd, rfl⟩ := h
    obtain ⟨k, e, x⟩ := a
    cases k <;> rfl
  · rw [h]

theorem styleName_restored {v : Version} {a b : Object} (h : a.Restored v b) :
    b.styleName = a.styleName := by
  obtain ⟨k, e, x⟩ := a
  obtain ⟨e', h, rfl⟩ := h
  cases k
  case mLineStyle =>
    have hw : Written OName.mLineStyle.statements v e.fields 2 := by
      refine ⟨{ cmd := .field 2 (.one 2 .str) }, ?_, rfl, rfl⟩
      refine List.mem_append_right _ (List.mem_append_left _ (List.mem_append_right _ ?_))
      exact List.mem_of_getElem? (i := 1) rfl
    have := h.1 2 (show 2 ∉ [8, 9, 10, 11] by decide) (representable_simple (.inr rfl) _ _ _)
    rw [if_pos hw] at this
    exact congrArg some this
  all_goals rfl

theorem mlineStyle_restored {v : Version} {wh : Bool} {a b : Entity} (h : a.Restored v wh b) :
    b.mlineStyle = a.mlineStyle := by
  obtain ⟨⟨k, n, e⟩, x⟩ := a
  obtain ⟨e', h, x', -, rfl⟩ := h
  cases k
  case mLine =>
    have hw : Written (EName.mLine.statements n wh) v e.fields 18 := by
      refine ⟨{ cmd := .field 18 (.one 2 .str) }, ?_, rfl, rfl⟩
      refine List.mem_append_right _ (List.mem_append_right _ ?_)
      exact List.mem_of_getElem? (i := 1) rfl
    have := h.1 18 (show 18 ∉ [23, 25, 27, 28, 29, 30, 32] by decide) (show 18 ∉ ([] : List Nat) by
      decide) (representable_simple (.inr rfl) _ _ _)
    refine congrArg some (this.trans (if_pos hw))
  all_goals rfl

theorem countP_forall₂ {α β : Type} {R : α → β → Prop} {f : α → Bool} {g : β → Bool}
    (hR : ∀ a b, R a b → g b = f a) {as : List α} {bs : List β} (h : List.Forall₂ R as bs) :
    bs.countP g = as.countP f := by
  induction h with
  | nil => rfl
  | @cons a b as bs h _ ih => rw [List.countP_cons, List.countP_cons, ih, hR a b h]

end Dxf
