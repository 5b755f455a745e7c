import Verif.Lemmas.Told

/-! Errors of loading are justified by what was read. -/

namespace Dxf

variable {S : Stream}

/-! ### Entities and objects -/

/-- Errors name no place. -/
def QuietRd {α : Type} (r : Rd α) : Prop := ∀ s e, (r s).1 = .error e → e.place = none

namespace QuietRd

variable {α β : Type}

theorem pure {a : α} : QuietRd (Pure.pure a : Rd α) := fun s e h => by cases h

theorem fail {e : DxfErr} (h : e.place = none) : QuietRd (Rd.fail e : Rd α) := by
  intro s e' h'
  cases h'
  exact h

theorem bind {m : Rd α} {k : α → Rd β} (hm : QuietRd m) (hk : ∀ a, QuietRd (k a)) : QuietRd (m >>= k) := by
  intro s e he
  have h := hm s
  rw [Rd.run_bind] at he
  generalize m s = a at h he
  obtain ⟨x, t⟩ := a
  cases x with
  | error e' => cases he; exact h _ rfl
  | ok a => exact hk a t e he

theorem ite {c : Prop} [Decidable c] {a b : Rd α} (ha : QuietRd a) (hb : QuietRd b) :
    QuietRd (if c then a else b) := by
  by_cases hc : c
  · rw [if_pos hc]; exact ha
  · rw [if_neg hc]; exact hb

theorem withFuel {r : Nat → Rd α} (h : ∀ k, QuietRd (r k)) : QuietRd (Rd.withFuel r) :=
  fun s => h _ s

theorem tells {r : Rd α} (hq : QuietRd r) (hn : ∀ n, Nice false n r) (hS : Fine false S) :
    Tells S r := fun s hs =>
  ⟨fun e he => blamed_none (hq s e he), fun it h =>
    hs it ((hn s.length s (Nat.le_refl _) fun it h => hS it (hs it h)).1.subset h)⟩

end QuietRd

theorem nextEntity_quiet : QuietRd nextEntity := by
  intro s e he
  unfold nextEntity at he
  generalize Rd.withFuel readEntity s = a at he
  obtain ⟨x, t⟩ := a
  cases x with
  | ok a => cases he
  | error e' => cases e' <;> cases he <;> rfl

theorem nextSlot_quiet (slot : Option Flat) : QuietRd (nextSlot slot) := by
  cases slot with
  | none => exact nextEntity_quiet
  | some x => exact QuietRd.pure

theorem swallowSeqend_quiet (slot : Option Flat) : QuietRd (swallowSeqend slot) := by
  unfold swallowSeqend
  refine QuietRd.bind (nextSlot_quiet slot) fun a => ?_
  cases a with
  | none => exact QuietRd.pure
  | some x => exact QuietRd.ite QuietRd.pure QuietRd.pure

theorem takeMText_quiet (slot : Option Flat) : QuietRd (takeMText slot) := by
  unfold takeMText
  refine QuietRd.bind (nextSlot_quiet slot) fun a => ?_
  rcases a with _ | ⟨k, n, e⟩
  · exact QuietRd.pure
  · cases k <;> exact QuietRd.pure

theorem gatherAtts_quiet (fuel : Nat) : ∀ slot : Option Flat, QuietRd (gatherAtts fuel slot) := by
  induction fuel with
  | zero => exact fun _ => QuietRd.fail rfl
  | succ fuel ih =>
    intro slot
    unfold gatherAtts
    refine QuietRd.bind (nextSlot_quiet slot) fun a => ?_
    rcases a with _ | ⟨k, n, e⟩
    · exact QuietRd.pure
    · cases k
      case «attribute» => exact QuietRd.bind (ih none) fun a => QuietRd.pure
      all_goals exact QuietRd.pure

theorem gatherVerts_quiet (fuel : Nat) : ∀ slot : Option Flat, QuietRd (gatherVerts fuel slot) := by
  induction fuel with
  | zero => exact fun _ => QuietRd.fail rfl
  | succ fuel ih =>
    intro slot
    unfold gatherVerts
    refine QuietRd.bind (nextSlot_quiet slot) fun a => ?_
    rcases a with _ | ⟨k, n, e⟩
    · exact QuietRd.pure
    · cases k
      case vertex => exact QuietRd.bind (ih none) fun a => QuietRd.pure
      all_goals exact QuietRd.pure

theorem collectEntities_quiet (fuel : Nat) : ∀ slot : Option Flat,
    QuietRd (collectEntities fuel slot) := by
  induction fuel with
  | zero => exact fun _ => QuietRd.fail rfl
  | succ fuel ih =>
    intro slot
    unfold collectEntities
    refine QuietRd.bind (nextSlot_quiet slot) fun a => ?_
    cases a with
    | none => exact QuietRd.pure
    | some x =>
      refine QuietRd.ite ?_ (QuietRd.ite ?_ (QuietRd.ite ?_ ?_))
      · exact QuietRd.bind (takeMText_quiet none) fun a => QuietRd.bind (ih _) fun b => QuietRd.pure
      · exact QuietRd.bind (QuietRd.withFuel fun k => gatherAtts_quiet k none) fun a =>
          QuietRd.bind (swallowSeqend_quiet _) fun b => QuietRd.bind (ih _) fun c => QuietRd.pure
      · exact QuietRd.bind (QuietRd.withFuel fun k => gatherVerts_quiet k none) fun a =>
          QuietRd.bind (swallowSeqend_quiet _) fun b => QuietRd.bind (ih _) fun c => QuietRd.pure
      · exact QuietRd.bind (ih none) fun c => QuietRd.pure

theorem readEntities_tells (hS : Fine false S) : Tells S readEntities :=
  QuietRd.tells (QuietRd.withFuel fun k => collectEntities_quiet k none)
    (fun n => readEntities_nice false n) hS

theorem nextObject_quiet : QuietRd nextObject := by
  intro s e he
  unfold nextObject at he
  generalize Rd.withFuel readObject s = a at he
  obtain ⟨x, t⟩ := a
  cases x with
  | ok a => cases he
  | error e' => cases e' <;> cases he <;> rfl

theorem collectObjects_quiet (fuel : Nat) : QuietRd (collectObjects fuel) := by
  induction fuel with
  | zero => exact QuietRd.fail rfl
  | succ fuel ih =>
    unfold collectObjects
    refine QuietRd.bind nextObject_quiet fun a => ?_
    cases a with
    | none => exact QuietRd.pure
    | some o => exact QuietRd.bind ih fun _ => QuietRd.pure

theorem readObjects_tells (hS : Fine false S) : Tells S readObjects :=
  QuietRd.tells (QuietRd.withFuel collectObjects_quiet) (fun n => readObjects_nice false n) hS

theorem swallowItem_tells : Tells S swallowItem := item_tells false (fun _ _ _ => Tells.pure) ()

/-! ### Blocks -/

theorem blockArms_fair : ∀ a ∈ Blocks.arms, a.act.Fair := fair_of_on _ (by decide +kernel)

theorem blockReadFrom_tells (hS : Fine false S) (fuel : Nat) : ∀ b : Block,
    Tells S (Block.readFrom fuel b) := by
  induction fuel with
  | zero => exact fun _ => Tells.stop rfl
  | succ fuel ih =>
    intro b
    unfold Block.readFrom
    exact Tells.bind (item_tells _ (fun _ _ hp => entryApply_tells _ blockArms_fair hp _) b.entry)
      fun e => Tells.bindNext fun p hp => Tells.ite
        (fun _ => Tells.bind swallowItem_tells fun _ => Tells.pure) fun _ =>
          Tells.bindBack hp (Tells.bind (readEntities_tells hS) fun es => ih _)

theorem blockRead_tells (hS : Fine false S) : Tells S Block.read :=
  Tells.withFuel fun k => blockReadFrom_tells hS k Block.dflt

/-! ### Header, classes, tables, thumbnail -/

theorem headerVars_fair : ∀ h ∈ Header.vars, ∀ a ∈ h.arms, a.act.Fair := by
  have hc : (Header.vars.all fun h => h.arms.all fun a =>
      match a.act with | .on _ _ => true | .custom _ _ => false) = true := by decide +kernel
  intro h hm
  intro a ha
  have := List.all_eq_true.mp (List.all_eq_true.mp hc h hm) a ha
  cases hact : a.act with
  | on i c => trivial
  | custom l f => rw [hact] at this; simp at this

theorem setHeaderValue_fair (name : Str) {p : CodePair} (hp : At S p) (r : Header) :
    Fair S (setHeaderValue Header.vars name p r) := by
  unfold setHeaderValue findVar
  cases h : Header.vars.find? fun h => decide (h.name = name) with
  | none => exact Fair.ok
  | some x =>
    dsimp only
    cases ha : findArm x.arms p.code with
    | none =>
      dsimp only
      split
      · exact Fair.error (hp.blamed ⟨rfl, rfl⟩)
      · exact Fair.error (hp.blamed rfl)
    | some a =>
      exact Fair.act _ (headerVars_fair x (List.mem_of_find?_eq_some h) a
        (List.mem_of_find?_eq_some ha)) _ hp

theorem headerValues_tells (name : Str) (fuel : Nat) : ∀ r,
    Tells S (headerValues Header.vars name fuel r) := by
  induction fuel with
  | zero => exact fun _ => Tells.stop rfl
  | succ fuel ih =>
    intro r
    unfold headerValues
    exact Tells.bindNext? Tells.pure fun p hp => Tells.ite
      (fun _ => Tells.bindBack hp Tells.pure) fun _ =>
        Tells.bindLift (setHeaderValue_fair _ hp _) ih

theorem headerLoop_tells (fuel : Nat) : ∀ r, Tells S (headerLoop Header.vars fuel r) := by
  induction fuel with
  | zero => exact fun _ => Tells.stop rfl
  | succ fuel ih =>
    intro r
    unfold headerLoop
    exact Tells.bindNext? Tells.pure fun p hp => Tells.ite
      (fun _ => Tells.bindBack hp Tells.pure) fun _ => Tells.ite
        (fun _ => Tells.bindLift (Fair.assertString hp) fun _ =>
          Tells.bind (Tells.withFuel fun k => headerValues_tells _ k _) ih)
        fun _ => Tells.fail (hp.blamed rfl)

theorem header_tells (h0 : Header) : Tells S (Header.read h0) :=
  Tells.withFuel fun k => headerLoop_tells k _

theorem classApply_fair (v : Version) {p : CodePair} (hp : At S p) (c : Class) :
    Fair S (Class.apply v p c) := by
  unfold Class.apply
  repeat' refine Fair.ite ?_ ?_
  all_goals first
    | exact Fair.ok
    | exact Fair.map (Fair.assertString hp)
    | exact Fair.map (Fair.assertI32 hp)
    | exact Fair.map (Fair.assertI16 hp)

theorem classRead_tells (v : Version) (s : Str) : Tells S (Class.read v s) :=
  item_tells _ (fun _ _ hp => Tells.lift (classApply_fair v hp _)) _

theorem classReadAll_tells (v : Version) (fuel : Nat) : Tells S (Class.readAll v fuel) := by
  induction fuel with
  | zero => exact Tells.stop rfl
  | succ fuel ih =>
    unfold Class.readAll
    exact Tells.bindNext fun p hp => Tells.ite (fun _ => Tells.bindLift (Fair.assertString hp)
      fun _ => Tells.ite (fun _ => Tells.bindBack hp Tells.pure) fun _ =>
        Tells.bind (classRead_tells _ _) fun _ => Tells.bind ih fun _ => Tells.pure)
      fun _ => ih

theorem tableArms_fair (t : TName) : ∀ a ∈ t.kind.arms, a.act.Fair := by
  cases t
  case layer =>
    have hd : Tables.readLayerColor.Fair := by
      intro S r p hp
      have h := Fair.assertI16 hp
      dsimp only
      generalize p.assertI16 = x at h ⊢
      cases x
      · exact fun e he => h e (by cases he; rfl)
      · dsimp only
        split
        · exact Fair.error (blamed_none rfl)
        · exact Fair.ok
    simp only [TName.kind, Tables.layer, Tables.layerArms]
    repeat' first
      | exact fun _ h => absurd h List.not_mem_nil
      | (refine List.forall_mem_cons.mpr ⟨?_, ?_⟩)
      | exact trivial
      | exact hd
  all_goals exact fair_of_on _ (by decide +kernel)

theorem tableRead_tells (T : TName) (fuel : Nat) : Tells S (T.kind.read fuel) := by
  induction fuel with
  | zero => exact Tells.stop rfl
  | succ fuel ih =>
    unfold TableKind.read
    exact Tells.bindNext fun p hp => Tells.ite (fun _ => Tells.bindLift (Fair.assertString hp)
      fun _ => Tells.ite (fun _ => Tells.bindBack hp Tells.pure) fun _ =>
        Tells.bind (item_tells _ (fun _ _ hp => entryApply_tells _ (tableArms_fair T) hp _)
          (Entry.dflt T.kind.decls)) fun _ => Tells.bind ih fun _ => Tells.pure) fun _ => ih

theorem readChunks_tells (fuel : Nat) : Tells S (Thumbnail.readChunks fuel) := by
  induction fuel with
  | zero => exact Tells.stop rfl
  | succ fuel ih =>
    unfold Thumbnail.readChunks
    exact Tells.bindNext? Tells.pure fun p hp => Tells.ite
      (fun _ => Tells.bindBack hp Tells.pure) fun _ => Tells.ite
        (fun _ => Tells.bindLift (Fair.assertBinary hp) fun _ => Tells.bind ih fun _ =>
          Tells.pure) fun _ => Tells.fail (hp.blamed ⟨rfl, rfl⟩)

theorem readWord_fair (d : List Byte) (o : Nat) : Fair S (Thumbnail.readWord d o) := by
  unfold Thumbnail.readWord
  split
  · exact Fair.ok
  · exact Fair.error (blamed_none rfl)

theorem setWord_fair (d : List Byte) (o : Nat) (w : BitVec 32) : Fair S (Thumbnail.setWord d o w) :=
  Fair.ite (Fair.error (blamed_none rfl)) Fair.ok

theorem setOffset_fair (d : List Byte) : Fair S (Thumbnail.setOffset d) :=
  Fair.bind (readWord_fair _ _) fun _ => Fair.ite
    (Fair.bind (readWord_fair _ _) fun _ => Fair.ite (Fair.error (blamed_none rfl))
      (Fair.bind (setWord_fair _ _ _) fun _ => Fair.pure)) Fair.pure

theorem readBytes_tells : Tells S Thumbnail.readBytes := by
  unfold Thumbnail.readBytes
  exact Tells.bindNext? Tells.pure fun p hp => Tells.ite
    (fun _ => Tells.bindBack hp Tells.pure) fun _ => Tells.ite
      (fun _ => Tells.bindLift (Fair.assertI32 hp) fun _ => Tells.bind
        (Tells.withFuel readChunks_tells) fun _ => Tells.bindLift (setWord_fair _ _ _) fun _ =>
          Tells.pure)
      fun _ => Tells.fail (hp.blamed ⟨rfl, rfl⟩)

theorem thumbnail_tells {Img : Type} (codec : ImageCodec Img)
    (hc : ∀ b e, codec.load b = .error e → e.place = none) : Tells S (Thumbnail.read codec) := by
  unfold Thumbnail.read
  refine Tells.bind readBytes_tells fun a => ?_
  cases a with
  | none => exact Tells.pure
  | some d =>
    refine Tells.bindLift (setOffset_fair _) fun b => ?_
    cases b with
    | none => exact Tells.pure
    | some d => exact Tells.bindLift (fun e he => blamed_none (hc _ e he)) fun _ => Tells.pure

/-! ### Sections -/

namespace Drawing

variable {Img : Type}

theorem expect_tells (mark : Str) : Tells S (expect mark) := by
  unfold expect
  exact Tells.bindNext fun p hp => Tells.ite (fun _ => Tells.pure) fun _ => Tells.fail (hp.blamed rfl)

theorem swallowTable_tells (fuel : Nat) : Tells S (swallowTable fuel) := by
  induction fuel with
  | zero => exact Tells.stop rfl
  | succ fuel ih =>
    unfold swallowTable
    exact Tells.bindNext fun p hp => Tells.ite (fun _ => Tells.bindLift (Fair.assertString hp)
      fun _ => Tells.ite (fun _ => Tells.putBack hp) fun _ => ih) fun _ => ih

theorem swallowSection_tells (fuel : Nat) : Tells S (swallowSection fuel) := by
  induction fuel with
  | zero => exact Tells.stop rfl
  | succ fuel ih =>
    unfold swallowSection
    exact Tells.bindNext? Tells.pure fun p hp => Tells.ite
      (fun _ => Tells.bindLift (Fair.assertString hp)
        fun _ => Tells.ite (fun _ => Tells.putBack hp) fun _ => ih) fun _ => ih

theorem readTable_tells (d : Drawing Img) : Tells S (readTable d) := by
  unfold readTable
  refine Tells.bindNext fun p hp => Tells.ite (fun _ => Tells.fail (hp.blamed rfl)) fun _ =>
    Tells.bindLift (Fair.assertString hp) fun s => ?_
  cases tableOf s with
  | none =>
    exact Tells.bind (Tells.withFuel swallowTable_tells) fun _ => Tells.bind (expect_tells _)
      fun _ => Tells.pure
  | some T =>
    exact Tells.bind (Tells.withFuel fun k => tableRead_tells T k) fun items => Tells.bind
      (Tells.lift (Fair.panics (OnlyPanics.foldlM (addRead_panics T) items d))) fun _ =>
        Tells.bind (expect_tells _) fun _ => Tells.pure

theorem readBlock_tells (hS : Fine false S) (d : Drawing Img) : Tells S (readBlock d) :=
  Tells.bind (blockRead_tells hS) fun b => Tells.lift (Fair.panics (addReadBlock_panics d b))

theorem readItems_tells {type : Str} {callback : Drawing Img → Rd (Drawing Img)}
    (hc : ∀ d, Tells S (callback d)) (fuel : Nat) : ∀ d : Drawing Img,
    Tells S (readItems type callback fuel d) := by
  induction fuel with
  | zero => exact fun _ => Tells.stop rfl
  | succ fuel ih =>
    intro d
    unfold readItems
    exact Tells.bindNext fun p hp => Tells.ite (fun _ => Tells.bindLift (Fair.assertString hp)
      fun _ => Tells.ite (fun _ => Tells.bindBack hp Tells.pure) fun _ =>
        Tells.ite (fun _ => Tells.bind (hc d) ih) fun _ => Tells.fail (hp.blamed rfl))
      fun _ => Tells.fail (hp.blamed rfl)

theorem readEntitySection_tells (hS : Fine false S) (d : Drawing Img) :
    Tells S d.readEntitySection :=
  Tells.bind (readEntities_tells hS) fun es =>
    Tells.lift (Fair.panics (OnlyPanics.foldlM addReadEntity_panics es d))

theorem readObjectSection_tells (hS : Fine false S) (d : Drawing Img) :
    Tells S d.readObjectSection :=
  Tells.bind (readObjects_tells hS) fun os =>
    Tells.lift (Fair.panics (OnlyPanics.foldlM addReadObject_panics os d))

theorem readSection_tells (hS : Fine false S) (codec : ImageCodec Img)
    (hc : ∀ b e, codec.load b = .error e → e.place = none) (h0 : Header) (name : Str)
    (d : Drawing Img) : Tells S (readSection codec h0 name d) := by
  unfold readSection
  exact Tells.ite (fun _ => Tells.bind (header_tells _) fun _ => Tells.pure) fun _ =>
    Tells.ite (fun _ => Tells.bind (Tells.withFuel fun k => classReadAll_tells _ k)
      fun _ => Tells.pure) fun _ =>
    Tells.ite (fun _ => Tells.withFuel fun k => readItems_tells readTable_tells k d) fun _ =>
    Tells.ite (fun _ => Tells.withFuel fun k => readItems_tells (readBlock_tells hS) k d) fun _ =>
    Tells.ite (fun _ => readEntitySection_tells hS d) fun _ =>
    Tells.ite (fun _ => readObjectSection_tells hS d) fun _ =>
    Tells.ite (fun _ => Tells.bind (thumbnail_tells codec hc) fun _ => Tells.pure) fun _ =>
    Tells.bind (Tells.withFuel swallowSection_tells) fun _ => Tells.pure

theorem readSections_tells (hS : Fine false S) (codec : ImageCodec Img)
    (hc : ∀ b e, codec.load b = .error e → e.place = none) (h0 : Header) (fuel : Nat) :
    ∀ d : Drawing Img, Tells S (readSections codec h0 fuel d) := by
  induction fuel with
  | zero => exact fun _ => Tells.stop rfl
  | succ fuel ih =>
    intro d
    unfold readSections
    refine Tells.bindNext? Tells.pure fun p hp => Tells.ite (fun _ => ?_)
      fun _ => Tells.fail (hp.blamed rfl)
    refine Tells.bindLift (Fair.assertString hp) fun _ => Tells.ite
      (fun _ => Tells.bindBack hp Tells.pure) fun _ => Tells.ite (fun _ => ?_)
        fun _ => Tells.fail (hp.blamed rfl)
    refine Tells.bindNext fun q hq => ?_
    split
    · exact Tells.ite (fun _ => Tells.bind (readSection_tells hS codec hc h0 _ d) fun _ =>
        Tells.bind (expect_tells _) fun _ => ih _) fun _ => Tells.fail (hq.blamed rfl)
    · exact Tells.fail (hq.blamed rfl)

theorem finish_tells (d : Drawing Img) : Tells S d.finish := by
  unfold finish
  exact Tells.bindNext? Tells.pure fun p hp => Tells.ite (fun _ => Tells.pure)
    fun _ => Tells.fail (hp.blamed rfl)

theorem load_tells (hS : Fine false S) (codec : ImageCodec Img)
    (hc : ∀ b e, codec.load b = .error e → e.place = none) (h0 : Header) (order : List Str) :
    Tells S (load codec h0 order) := by
  unfold load
  exact Tells.bindLift (Fair.panics (normalize_panics _ _)) fun d =>
    Tells.bind (Tells.withFuel fun k => readSections_tells hS codec hc h0 k _) finish_tells

end Drawing

end Dxf
