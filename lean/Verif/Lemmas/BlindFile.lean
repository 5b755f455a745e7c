import Verif.Lemmas.BlindObjects

/-! Loading does not depend on the places of the pairs, except for the pairs that are kept. -/

namespace Dxf

namespace Drawing

variable {Img : Type}

/-- The second component without places. -/
def stripWith {α β : Type} (f : α → β) (x : α × Drawing Img) : β × Drawing Img := (f x.1, x.2.strip)

theorem nextHandle_like (d : Drawing Img) :
    Like (stripWith id) d.nextHandle d.strip.nextHandle :=
  Like.ite Iff.rfl rfl rfl

theorem tables_strip (d : Drawing Img) (t : TName) : d.strip.tables t = (d.tables t).map Entry.strip :=
  rfl

theorem name_strip (t : TName) (x : t.Item) : t.name x.strip = t.name x := by cases t <;> rfl
theorem handle_strip (t : TName) (x : t.Item) : t.handle x.strip = t.handle x := by cases t <;> rfl
theorem setHandle_strip (t : TName) (x : t.Item) (h : Handle) :
    t.setHandle x.strip h = (t.setHandle x h).strip := by cases t <;> rfl
theorem named_strip (t : TName) (n : Str) : (t.named n).strip = t.named n := by cases t <;> rfl

theorem setTable_strip (d : Drawing Img) (t : TName) (l : List t.Item) :
    d.strip.setTable t (l.map Entry.strip) = (d.setTable t l).strip := by
  have : (d.strip.setTable t (l.map Entry.strip)).tables = (d.setTable t l).strip.tables := by
    funext t'
    change (if h : t = t' then h ▸ l.map Entry.strip else (d.tables t').map Entry.strip) =
      (if h : t = t' then h ▸ l else d.tables t').map Entry.strip
    split
    · rename_i h
      cases h
      rfl
    · rfl
  exact congrArg (fun x => ({ d.strip with tables := x } : Drawing Img)) this

theorem push_strip (d : Drawing Img) (t : TName) (x : t.Item) :
    d.strip.push t x.strip = (d.push t x).strip := by
  unfold push
  rw [← setTable_strip, List.map_append]
  rfl

theorem has_strip (d : Drawing Img) (t : TName) (n : Str) : d.strip.has t n = d.has t n := by
  unfold has
  rw [tables_strip, List.any_map]
  congr 1
  funext x
  exact congrArg (· == n) (name_strip t x)

theorem ensurePlain_like (d : Drawing Img) (t : TName) (n : Str) :
    Like strip (d.ensurePlain t n) (d.strip.ensurePlain t n) := by
  unfold ensurePlain
  rw [has_strip]
  refine Like.ite Iff.rfl rfl (Like.bind (nextHandle_like d) fun a => Like.pure ?_)
  rw [← push_strip, ← setHandle_strip, named_strip]
  rfl

theorem addNoHandle_like (d : Drawing Img) (t : TName) (x : t.Item) :
    Like strip (d.addNoHandle t x) (d.strip.addNoHandle t x.strip) := by
  cases t
  case layer => exact Like.bind (ensurePlain_like d _ _) fun a => Like.pure (push_strip _ _ _)
  all_goals exact push_strip _ _ _

theorem add_like (d : Drawing Img) (t : TName) (x : t.Item) :
    Like (stripWith Entry.strip) (d.add t x) (d.strip.add t x.strip) := by
  refine Like.bind (nextHandle_like d) fun a => ?_
  have h := addNoHandle_like a.2 t (t.setHandle x a.1)
  rw [← setHandle_strip] at h
  refine Like.bind h fun d' => Like.pure ?_
  change (t.setHandle x.strip a.1, d'.strip) = ((t.setHandle x a.1).strip, d'.strip)
  rw [setHandle_strip]

theorem ensure_like (d : Drawing Img) (t : TName) (n : Str) :
    Like strip (d.ensure t n) (d.strip.ensure t n) := by
  unfold ensure
  rw [has_strip]
  have h := add_like d t (t.named n)
  rw [named_strip] at h
  exact Like.ite Iff.rfl rfl (Like.bind h fun _ => Like.pure rfl)

theorem ensureAll_like (d : Drawing Img) (t : TName) (l : List Str) :
    Like strip (d.ensureAll t l) (d.strip.ensureAll t l) := by
  have h := Like.foldlM (t := id) (u := strip (Img := Img))
    (k := fun d name => d.ensure t name) (k' := fun d name => d.ensure t name)
    (fun d n => ensure_like d t n) l d
  rw [List.map_id] at h
  exact h

theorem addObjectNoHandle_like (d : Drawing Img) (o : Object) :
    Like strip (d.addObjectNoHandle o) (d.strip.addObjectNoHandle o.strip) := by
  have hl : o.strip.layers = o.layers := by rcases o with ⟨k, e, x⟩; cases k <;> rfl
  have hs : o.strip.styleName = o.styleName := by rcases o with ⟨k, e, x⟩; cases k <;> rfl
  have hv : o.strip.viewName = o.viewName := by rcases o with ⟨k, e, x⟩; cases k <;> rfl
  unfold addObjectNoHandle
  rw [hl, hs, hv]
  refine Like.bind (ensureAll_like d _ _) fun a => Like.bind (ensureAll_like a _ _) fun b =>
    Like.bind (ensureAll_like b _ _) fun c => Like.bind (ensureAll_like c _ _) fun e =>
      Like.pure ?_
  simp [strip]

theorem addObject_like (d : Drawing Img) (o : Object) :
    Like (stripWith Object.strip) (d.addObject o) (d.strip.addObject o.strip) :=
  Like.bind (nextHandle_like d) fun a => Like.bind (addObjectNoHandle_like a.2 (o.setHandle a.1))
    fun _ => Like.pure rfl

theorem styleName_strip (o : Object) : o.strip.styleName = o.styleName := by
  rcases o with ⟨k, e, x⟩; cases k <;> rfl

theorem ensureMLineStyle_like (d : Drawing Img) (n : Option Str) :
    Like strip (d.ensureMLineStyle n) (d.strip.ensureMLineStyle n) := by
  cases n with
  | none => exact rfl
  | some n =>
    unfold ensureMLineStyle
    have h : (d.strip.objects.any fun o => o.styleName == some n) =
        d.objects.any fun o => o.styleName == some n := by
      change (d.objects.map Object.strip).any _ = _
      rw [List.any_map]
      congr 1
      funext o
      exact congrArg (· == some n) (styleName_strip o)
    exact Like.ite (Iff.of_eq (congrArg (· = true) h)) rfl
      (Like.bind (addObject_like d (.mlineStyle n)) fun _ => Like.pure rfl)

theorem addEntityNoHandle_like (d : Drawing Img) (e : Entity) :
    Like strip (d.addEntityNoHandle e) (d.strip.addEntityNoHandle e.strip) := by
  have hm : e.strip.mlineStyle = e.mlineStyle := by rcases e with ⟨⟨k, n, e⟩, x⟩; cases k <;> rfl
  have hd : e.strip.dimStyle = e.dimStyle := by rcases e with ⟨⟨k, n, e⟩, x⟩; cases k <;> rfl
  have ht : e.strip.textStyle = e.textStyle := by rcases e with ⟨⟨k, n, e⟩, x⟩; cases k <;> rfl
  unfold addEntityNoHandle
  rw [hm, hd, ht]
  refine Like.bind (ensureMLineStyle_like d _) fun a => Like.bind (ensureAll_like a _ _) fun b =>
    Like.bind (ensure_like b _ _) fun c => Like.bind (ensure_like c _ _) fun f =>
      Like.bind (ensureAll_like f _ _) fun g => Like.pure ?_
  simp [strip]

theorem childHandle_like (d : Drawing Img) (h : Handle) :
    Like (stripWith id) (d.childHandle h) (d.strip.childHandle h) :=
  Like.ite Iff.rfl (nextHandle_like d) rfl

theorem attHandles_like (l : List Att) : ∀ d : Drawing Img,
    Like (stripWith id) (attHandles l d) (attHandles l d.strip) := by
  induction l with
  | nil => exact fun _ => rfl
  | cons a l ih =>
    exact fun d => Like.bind (childHandle_like d _) fun b => Like.bind (ih b.2) fun _ => Like.pure rfl

theorem vertHandles_like (l : List Vert) : ∀ d : Drawing Img,
    Like (stripWith id) (vertHandles l d) (vertHandles l d.strip) := by
  induction l with
  | nil => exact fun _ => rfl
  | cons a l ih =>
    exact fun d => Like.bind (childHandle_like d _) fun b => Like.bind (ih b.2) fun _ => Like.pure rfl

theorem childHandles_like (d : Drawing Img) (e : Entity) :
    Like (stripWith Entity.strip) (d.childHandles e) (d.strip.childHandles e.strip) :=
  Like.ite Iff.rfl (Like.bind (nextHandle_like d) fun a => Like.bind (attHandles_like _ a.2)
    fun _ => Like.pure rfl) (Like.ite Iff.rfl (Like.bind (nextHandle_like d) fun a =>
      Like.bind (vertHandles_like _ a.2) fun _ => Like.pure rfl) rfl)

theorem addEntity_like (d : Drawing Img) (e : Entity) :
    Like (stripWith Entity.strip) (d.addEntity e) (d.strip.addEntity e.strip) :=
  Like.bind (nextHandle_like d) fun a => Like.bind (childHandles_like a.2 (e.setHandle a.1))
    fun b => Like.bind (addEntityNoHandle_like b.2 b.1) fun _ => Like.pure rfl

theorem entityHandles_like (l : List Entity) : ∀ d : Drawing Img,
    Like (stripWith (List.map Entity.strip)) (entityHandles l d)
      (entityHandles (l.map Entity.strip) d.strip) := by
  induction l with
  | nil => exact fun _ => rfl
  | cons a l ih =>
    exact fun d => Like.bind (nextHandle_like d) fun b => Like.bind (ih b.2) fun _ => Like.pure rfl

theorem addBlockNoHandle_like (d : Drawing Img) (b : Block) :
    Like (stripWith Block.strip) (d.addBlockNoHandle b) (d.strip.addBlockNoHandle b.strip) := by
  have hl : b.strip.entities.map Entity.layer = b.entities.map Entity.layer := by
    change (b.entities.map Entity.strip).map _ = _
    rw [List.map_map]; rfl
  have ht : b.strip.entities.map Entity.lineType = b.entities.map Entity.lineType := by
    change (b.entities.map Entity.strip).map _ = _
    rw [List.map_map]; rfl
  unfold addBlockNoHandle
  rw [hl, ht]
  refine Like.bind (ensureAll_like d _ _) fun a => Like.bind (ensureAll_like a _ _) fun c =>
    Like.bind (add_like c .blockRecord _) fun e => Like.bind (entityHandles_like _ e.2) fun f =>
      Like.pure ?_
  simp [strip, stripWith, Block.strip]

theorem addBlock_like (d : Drawing Img) (b : Block) :
    Like (stripWith Block.strip) (d.addBlock b) (d.strip.addBlock b.strip) :=
  Like.bind (nextHandle_like d) fun a => addBlockNoHandle_like a.2 (b.setHandle a.1)

theorem addRead_like (t : TName) (d : Drawing Img) (x : t.Item) :
    Like strip (addRead t d x) (addRead t d.strip x.strip) := by
  unfold addRead
  rw [handle_strip]
  exact Like.ite Iff.rfl (Like.bind (add_like d t x) fun _ => Like.pure rfl) (addNoHandle_like d t x)

theorem addReadBlock_like (d : Drawing Img) (b : Block) :
    Like strip (d.addReadBlock b) (d.strip.addReadBlock b.strip) := by
  unfold addReadBlock
  rw [show b.strip.handle = b.handle from rfl]
  by_cases h : b.handle = 0#64
  · simp only [if_pos h]
    exact Like.bind (addBlock_like d b) fun _ => Like.pure rfl
  · simp only [if_neg h]
    exact Like.bind (addBlockNoHandle_like d b) fun _ => Like.pure rfl

theorem addReadEntity_like (d : Drawing Img) (e : Entity) :
    Like strip (d.addReadEntity e) (d.strip.addReadEntity e.strip) :=
  Like.ite Iff.rfl (Like.bind (addEntity_like d e) fun _ => Like.pure rfl)
    (addEntityNoHandle_like d e)

theorem addReadObject_like (d : Drawing Img) (o : Object) :
    Like strip (d.addReadObject o) (d.strip.addReadObject o.strip) :=
  Like.ite Iff.rfl (Like.bind (addObject_like d o) fun _ => Like.pure rfl)
    (addObjectNoHandle_like d o)

end Drawing

/-! ### Header, classes, tables, thumbnail -/

theorem headerVars_blind : ∀ h ∈ Header.vars, ∀ a ∈ h.arms, a.act.Blind := by
  have hc : (Header.vars.all fun h => h.arms.all fun a =>
      match a.act with | .on _ _ => true | .custom _ _ => false) = true := by decide +kernel
  intro h hm
  intro a ha
  have := List.all_eq_true.mp (List.all_eq_true.mp hc h hm) a ha
  cases hact : a.act with
  | on i c => trivial
  | custom l f => rw [hact] at this; simp at this

theorem setHeaderValue_like (name : Str) (p : CodePair) (r : Header) :
    Like id (setHeaderValue Header.vars name p r) (setHeaderValue Header.vars name p.strip r) := by
  unfold setHeaderValue findVar
  cases h : Header.vars.find? fun h => decide (h.name = name) with
  | none => exact rfl
  | some x =>
    dsimp only
    rw [show p.strip.code = p.code from rfl]
    cases ha : findArm x.arms p.code with
    | none => dsimp only; split <;> exact rfl
    | some a =>
      exact Like.act _ (headerVars_blind x (List.mem_of_find?_eq_some h) a
        (List.mem_of_find?_eq_some ha)) _ _

theorem headerValues_blind (name : Str) (fuel : Nat) : ∀ r,
    Blind id (headerValues Header.vars name fuel r) (headerValues Header.vars name fuel r) := by
  induction fuel with
  | zero => exact fun _ => Blind.fail rfl
  | succ fuel ih =>
    intro r
    unfold headerValues
    exact Blind.bindNext? (Blind.pure rfl) fun p => Blind.ite Iff.rfl
      (fun _ => Blind.bindBack p (Blind.pure rfl)) fun _ =>
        Blind.bindLift (setHeaderValue_like _ _ _) ih

theorem headerLoop_blind (fuel : Nat) : ∀ r,
    Blind id (headerLoop Header.vars fuel r) (headerLoop Header.vars fuel r) := by
  induction fuel with
  | zero => exact fun _ => Blind.fail rfl
  | succ fuel ih =>
    intro r
    unfold headerLoop
    exact Blind.bindNext? (Blind.pure rfl) fun p => Blind.ite Iff.rfl
      (fun _ => Blind.bindBack p (Blind.pure rfl)) fun _ => Blind.ite Iff.rfl
        (fun _ => Blind.bindLift (Like.assertString p) fun _ =>
          Blind.bindId (Blind.withFuel fun k => headerValues_blind _ k _) ih) fun _ => Blind.fail rfl

theorem header_blind (h0 : Header) : Blind id (Header.read h0) (Header.read h0) :=
  Blind.withFuel fun k => headerLoop_blind k _

theorem classApply_like (v : Version) (p : CodePair) (c : Class) :
    Like id (Class.apply v p c) (Class.apply v p.strip c) := by
  unfold Class.apply
  repeat' refine Like.ite Iff.rfl ?_ ?_
  all_goals first
    | exact rfl
    | exact Like.map (Like.assertString p) fun _ => rfl
    | exact Like.map (Like.assertI32 p) fun _ => rfl
    | exact Like.map (Like.assertI16 p) fun _ => rfl

theorem classRead_blind (v : Version) (s : Str) : Blind id (Class.read v s) (Class.read v s) :=
  item_blind (f := id) _ (fun p _ => Blind.lift (classApply_like v p _)) _

theorem classReadAll_blind (v : Version) (fuel : Nat) :
    Blind id (Class.readAll v fuel) (Class.readAll v fuel) := by
  induction fuel with
  | zero => exact Blind.fail rfl
  | succ fuel ih =>
    unfold Class.readAll
    exact Blind.bindNext fun p => Blind.ite Iff.rfl (fun _ => Blind.bindLift (Like.assertString p)
      fun _ => Blind.ite Iff.rfl (fun _ => Blind.bindBack p (Blind.pure rfl)) fun _ =>
        Blind.bindId (classRead_blind _ _) fun _ => Blind.bindId ih fun _ => Blind.pure rfl)
      fun _ => ih

theorem tableArms_blind (t : TName) : ∀ a ∈ t.kind.arms, a.act.Blind := by
  cases t
  case layer =>
    have hd : Tables.readLayerColor.Blind := by
      intro r p
      have h := Like.assertI16 p
      dsimp only
      generalize p.assertI16 = x at h ⊢
      generalize p.strip.assertI16 = y at h ⊢
      cases x <;> cases y
      · exact h
      · exact h.elim
      · exact h.elim
      · cases (show _ = _ from h)
        exact Like.rfl'
    simp only [TName.kind, Tables.layer, Tables.layerArms]
    repeat' first
      | exact fun _ h => absurd h List.not_mem_nil
      | (refine List.forall_mem_cons.mpr ⟨?_, ?_⟩)
      | exact trivial
      | exact hd
  all_goals exact blind_of_on _ (by decide +kernel)

theorem tableRead_blind (T : TName) (fuel : Nat) :
    Blind (List.map Entry.strip) (T.kind.read fuel) (T.kind.read fuel) := by
  induction fuel with
  | zero => exact Blind.fail rfl
  | succ fuel ih =>
    unfold TableKind.read
    exact Blind.bindNext fun p => Blind.ite Iff.rfl (fun _ => Blind.bindLift (Like.assertString p)
      fun _ => Blind.ite Iff.rfl (fun _ => Blind.bindBack p (Blind.pure rfl)) fun _ =>
        Blind.bind (item_blind _ (entryApply_blind _ (tableArms_blind T)) (Entry.dflt T.kind.decls))
          fun _ => Blind.bind ih fun _ => Blind.pure rfl) fun _ => ih

theorem readChunks_blind (fuel : Nat) :
    Blind id (Thumbnail.readChunks fuel) (Thumbnail.readChunks fuel) := by
  induction fuel with
  | zero => exact Blind.fail rfl
  | succ fuel ih =>
    unfold Thumbnail.readChunks
    exact Blind.bindNext? (Blind.pure rfl) fun p => Blind.ite Iff.rfl
      (fun _ => Blind.bindBack p (Blind.pure rfl)) fun _ => Blind.ite Iff.rfl
        (fun _ => Blind.bindLift (Like.assertBinary p) fun _ => Blind.bindId ih fun _ =>
          Blind.pure rfl) fun _ => Blind.fail rfl

theorem readBytes_blind : Blind id Thumbnail.readBytes Thumbnail.readBytes := by
  unfold Thumbnail.readBytes
  exact Blind.bindNext? (Blind.pure rfl) fun p => Blind.ite Iff.rfl
    (fun _ => Blind.bindBack p (Blind.pure rfl)) fun _ => Blind.ite Iff.rfl
      (fun _ => Blind.bindLift (Like.assertI32 p) fun _ => Blind.bindId
        (Blind.withFuel readChunks_blind) fun _ => Blind.bindLift Like.rfl' fun _ => Blind.pure rfl)
      fun _ => Blind.fail rfl

theorem thumbnail_blind {Img : Type} (codec : ImageCodec Img) :
    Blind id (Thumbnail.read codec) (Thumbnail.read codec) := by
  unfold Thumbnail.read
  refine Blind.bindId readBytes_blind fun a => ?_
  cases a with
  | none => exact Blind.pure rfl
  | some d =>
    refine Blind.bindLift Like.rfl' fun b => ?_
    cases b with
    | none => exact Blind.pure rfl
    | some d => exact Blind.bindLift Like.rfl' fun _ => Blind.pure rfl

/-! ### Sections -/

namespace Drawing

variable {Img : Type}

theorem expect_blind (mark : Str) : Blind id (expect mark) (expect mark) := by
  unfold expect
  exact Blind.bindNext fun p => Blind.ite Iff.rfl (fun _ => Blind.pure rfl) fun _ => Blind.fail rfl

theorem swallowTable_blind (fuel : Nat) : Blind id (swallowTable fuel) (swallowTable fuel) := by
  induction fuel with
  | zero => exact Blind.fail rfl
  | succ fuel ih =>
    unfold swallowTable
    exact Blind.bindNext fun p => Blind.ite Iff.rfl (fun _ => Blind.bindLift (Like.assertString p)
      fun _ => Blind.ite Iff.rfl (fun _ => Blind.putBack p) fun _ => ih) fun _ => ih

theorem swallowSection_blind (fuel : Nat) : Blind id (swallowSection fuel) (swallowSection fuel) := by
  induction fuel with
  | zero => exact Blind.fail rfl
  | succ fuel ih =>
    unfold swallowSection
    exact Blind.bindNext? (Blind.pure rfl) fun p => Blind.ite Iff.rfl
      (fun _ => Blind.bindLift (Like.assertString p)
        fun _ => Blind.ite Iff.rfl (fun _ => Blind.putBack p) fun _ => ih) fun _ => ih

theorem readTable_blind (d : Drawing Img) : Blind strip (readTable d) (readTable d.strip) := by
  unfold readTable
  refine Blind.bindNext fun p => Blind.ite Iff.rfl (fun _ => Blind.fail rfl) fun _ =>
    Blind.bindLift (Like.assertString p) fun s => ?_
  cases tableOf s with
  | none =>
    exact Blind.bindId (Blind.withFuel swallowTable_blind) fun _ => Blind.bindId (expect_blind _)
      fun _ => Blind.pure rfl
  | some T =>
    exact Blind.bind (Blind.withFuel fun k => tableRead_blind T k) fun items => Blind.bind
      (Blind.lift (Like.foldlM (addRead_like T) items d)) fun _ => Blind.bindId (expect_blind _)
        fun _ => Blind.pure rfl

theorem readBlock_blind (d : Drawing Img) : Blind strip (readBlock d) (readBlock d.strip) :=
  Blind.bind blockRead_blind fun b => Blind.lift (addReadBlock_like d b)

theorem readItems_blind {type : Str} {callback : Drawing Img → Rd (Drawing Img)}
    (hc : ∀ d, Blind strip (callback d) (callback d.strip)) (fuel : Nat) : ∀ d : Drawing Img,
    Blind strip (readItems type callback fuel d) (readItems type callback fuel d.strip) := by
  induction fuel with
  | zero => exact fun _ => Blind.fail rfl
  | succ fuel ih =>
    intro d
    unfold readItems
    exact Blind.bindNext fun p => Blind.ite Iff.rfl (fun _ => Blind.bindLift (Like.assertString p)
      fun _ => Blind.ite Iff.rfl (fun _ => Blind.bindBack p (Blind.pure rfl)) fun _ =>
        Blind.ite Iff.rfl (fun _ => Blind.bind (hc d) ih) fun _ => Blind.fail rfl)
      fun _ => Blind.fail rfl

theorem readEntitySection_blind (d : Drawing Img) :
    Blind strip d.readEntitySection d.strip.readEntitySection :=
  Blind.bind readEntities_blind fun es => Blind.lift (Like.foldlM addReadEntity_like es d)

theorem readObjectSection_blind (d : Drawing Img) :
    Blind strip d.readObjectSection d.strip.readObjectSection :=
  Blind.bind readObjects_blind fun os => Blind.lift (Like.foldlM addReadObject_like os d)

theorem readSection_blind (codec : ImageCodec Img) (h0 : Header) (name : Str) (d : Drawing Img) :
    Blind strip (readSection codec h0 name d) (readSection codec h0 name d.strip) := by
  unfold readSection
  refine Blind.ite Iff.rfl (fun _ => Blind.bindId (header_blind _) fun _ => Blind.pure rfl) fun _ =>
    Blind.ite Iff.rfl (fun _ => Blind.bindId (Blind.withFuel fun k => classReadAll_blind _ k)
      fun _ => Blind.pure rfl) fun _ =>
    Blind.ite Iff.rfl (fun _ => Blind.withFuel fun k => readItems_blind readTable_blind k d) fun _ =>
    Blind.ite Iff.rfl (fun _ => Blind.withFuel fun k => readItems_blind readBlock_blind k d) fun _ =>
    Blind.ite Iff.rfl (fun _ => readEntitySection_blind d) fun _ =>
    Blind.ite Iff.rfl (fun _ => readObjectSection_blind d) fun _ =>
    Blind.ite Iff.rfl (fun _ => Blind.bindId (thumbnail_blind codec) fun _ => Blind.pure rfl) fun _ =>
    Blind.bindId (Blind.withFuel swallowSection_blind) fun _ => Blind.pure rfl

theorem readSections_blind (codec : ImageCodec Img) (h0 : Header) (fuel : Nat) :
    ∀ d : Drawing Img, Blind strip (readSections codec h0 fuel d)
      (readSections codec h0 fuel d.strip) := by
  induction fuel with
  | zero => exact fun _ => Blind.fail rfl
  | succ fuel ih =>
    intro d
    unfold readSections
    refine Blind.bindNext? (Blind.pure rfl) fun p => Blind.ite Iff.rfl (fun _ => ?_)
      fun _ => Blind.fail rfl
    refine Blind.bindLift (Like.assertString p) fun _ => Blind.ite Iff.rfl
      (fun _ => Blind.bindBack p (Blind.pure rfl)) fun _ => Blind.ite Iff.rfl (fun _ => ?_)
        fun _ => Blind.fail rfl
    refine Blind.bindNext fun q => ?_
    rw [show q.strip.value = q.value from rfl]
    split
    · exact Blind.ite Iff.rfl (fun _ => Blind.bind (readSection_blind codec h0 _ d) fun _ =>
        Blind.bindId (expect_blind _) fun _ => ih _) fun _ => Blind.fail rfl
    · exact Blind.fail rfl

theorem finish_blind (d : Drawing Img) : Blind strip d.finish d.strip.finish := by
  unfold finish
  exact Blind.bindNext? (Blind.pure rfl) fun p => Blind.ite Iff.rfl (fun _ => Blind.pure rfl)
    fun _ => Blind.fail rfl

theorem load_blind (codec : ImageCodec Img) (h0 : Header) (order : List Str) :
    Blind strip (load codec h0 order) (load codec h0 order) := by
  unfold load
  refine Blind.bindLift Like.rfl' fun d => Blind.bind (Blind.withFuel fun k => ?_) finish_blind
  exact readSections_blind codec h0 k d.clear

/-- Two streams that differ in nothing but places give the same drawing, up to places. -/
theorem load_like (codec : ImageCodec Img) (h0 : Header) (order : List Str) {s s' : Stream}
    (hs : Stream.strip s = Stream.strip s') {d : Drawing Img}
    (h : (load codec h0 order s).1 = .ok d) :
    ∃ d' : Drawing Img, (load codec h0 order s').1 = .ok d' ∧ d'.strip = d.strip := by
  have h1 := (load_blind codec h0 order s).1
  have h2 := (load_blind codec h0 order s').1
  rw [h, hs] at h1
  cases hx : (load codec h0 order (Stream.strip s')).1 with
  | error e => rw [hx] at h1; exact h1.elim
  | ok b =>
    rw [hx] at h1 h2
    cases hy : (load codec h0 order s').1 with
    | error e => rw [hy] at h2; exact h2.elim
    | ok c =>
      rw [hy] at h2
      exact ⟨c, rfl, (show b = c.strip from h2).symm.trans h1⟩

end Drawing

end Dxf
