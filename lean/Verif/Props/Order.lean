import Verif.Lemmas.OrderHeader
import Verif.Lemmas.InsertPlaces

/-! C67: the order of the codes within an item does not matter.

In every theorem `ps` is a run of pairs of one item, `qs` the same run in another order, and
loading gives the same result, be it a drawing or an error found later.  What comes before the run
and after it is arbitrary, as long as loading comes to the run and gets through it. -/

namespace Dxf

open Drawing

variable {Img : Type} {codec : ImageCodec Img} {h0 : Header} {order : List Str}

/-- The pairs of an entity, in the drawing or in a block. -/
theorem C67_entity {a b f ps qs c : List CodePair} {op : CodePair} {x : Str} {k : EName}
    {xs : List Flat} {st1 st2 : Mode × Entry k.decls}
    (h : BeforeEntities codec h0 order a (b ++ op :: (f ++ (ps ++ c))))
    (hs : Steps oneEntity [] (toStream (b ++ op :: (f ++ (ps ++ c)))) xs
      (toStream (op :: (f ++ (ps ++ c)))))
    (hop : op.code = 0 ∧ op.value = .str x) (hx : EName.ofType x = some k)
    (h1 : Steps (onePair k) (Mode.start, Entry.dflt k.decls) (toStream (f ++ (ps ++ c))) st1
      (toStream (ps ++ c)))
    (h2 : Steps (onePair k) st1 (toStream (ps ++ c)) st2 (toStream c))
    (hps : ∀ p ∈ ps, FieldCode p.code ∧ p.code ∉ k.fixed)
    (hcl : ∀ p ∈ ps, ∀ q ∈ ps, (p.code, q.code) ∉ k.clashes)
    (hq : Reordered CodePair.code ps qs)
    (hr : (load codec h0 order (toStream (a ++ (b ++ op :: (f ++ (ps ++ c)))))).1 ≠
      .error .outOfFuel) :
    (load codec h0 order (toStream (a ++ (b ++ op :: (f ++ (qs ++ c)))))).1 =
      (load codec h0 order (toStream (a ++ (b ++ op :: (f ++ (ps ++ c)))))).1 := by
  have hl := hq.length
  refine Same.load_eq (entities_load hop.1 hop.1 h (.inr ⟨by simp; omega, rfl⟩) ?_) hr
  have hf := fine_toStream (b ++ op :: (f ++ (ps ++ c)))
  have hf' := fine_toStream (f ++ (ps ++ c))
  have he : x ≠ str!"ENDSEC" ∧ x ≠ str!"ENDBLK" := by
    constructor <;> (intro hx'; rw [hx'] at hx; revert hx; rw [show EName.ofType _ = none by
      decide +kernel]; simp)
  simp only [toStream_append, toStream_cons] at hf hf' hs h1 h2 ⊢
  refine Steps.ins nextEntity_ok hop.1 hop.1
    (by simp only [List.length_append, toStream_length]; omega) hs hf fun hc => ?_
  exact nextEntity_order hps hcl hq hop hx he hf' h1 h2 hc

/-- The pairs of an object. -/
theorem C67_object {a b f ps qs c : List CodePair} {op : CodePair} {x : Str} {k : OName}
    {xs : List Object} {st1 st2 : OState k} {d : Drawing Img}
    (h : InSection codec h0 order str!"OBJECTS" a (b ++ op :: (f ++ (ps ++ c))) d)
    (hs : Steps oneObject [] (toStream (b ++ op :: (f ++ (ps ++ c)))) xs
      (toStream (op :: (f ++ (ps ++ c)))))
    (hop : op.code = 0 ∧ op.value = .str x) (hx : OName.ofType x = some k)
    (h1 : Steps (oneObjectPair k) (OMode.start, Entry.dflt k.decls, {}) (toStream (f ++ (ps ++ c)))
      st1 (toStream (ps ++ c)))
    (h2 : Steps (oneObjectPair k) st1 (toStream (ps ++ c)) st2 (toStream c))
    (hk : k ∉ OName.nested) (hps : ∀ p ∈ ps, FieldCode p.code ∧ p.code ∉ k.fixed)
    (hq : Reordered CodePair.code ps qs)
    (hr : (load codec h0 order (toStream (a ++ (b ++ op :: (f ++ (ps ++ c)))))).1 ≠
      .error .outOfFuel) :
    (load codec h0 order (toStream (a ++ (b ++ op :: (f ++ (qs ++ c)))))).1 =
      (load codec h0 order (toStream (a ++ (b ++ op :: (f ++ (ps ++ c)))))).1 := by
  have hl := hq.length
  refine Same.load_eq (inSection_same h (by simp; omega) ?_) hr
  have hf := fine_toStream (b ++ op :: (f ++ (ps ++ c)))
  have hf' := fine_toStream (f ++ (ps ++ c))
  have he : x ≠ str!"ENDSEC" ∧ x ≠ str!"ENDBLK" := by
    constructor <;> (intro hx'; rw [hx'] at hx; revert hx; rw [show OName.ofType _ = none by
      decide +kernel]; simp)
  unfold readSection
  rw [if_neg (by decide), if_neg (by decide), if_neg (by decide), if_neg (by decide),
    if_neg (by decide), if_pos rfl]
  refine objectSection_same d ?_
  simp only [toStream_append, toStream_cons] at hf hf' hs h1 h2 ⊢
  refine Steps.ins nextObject_ok hop.1 hop.1
    (by simp only [List.length_append, toStream_length]; omega) hs hf fun _ => ?_
  exact nextObject_order hk hps hq hop hx he hf' h1 h2

/-- The pairs of a table entry. -/
theorem C67_table {t : TName} {a b f ps qs c : List CodePair} {op : CodePair}
    {xs : List (TableItem t.kind)} {e1 e2 : TableItem t.kind}
    (h : InTable codec h0 order t a (b ++ op :: (f ++ (ps ++ c))))
    (hs : Steps (oneEntry t.kind) [] (toStream (b ++ op :: (f ++ (ps ++ c)))) xs
      (toStream (op :: (f ++ (ps ++ c)))))
    (hop : op.code = 0 ∧ op.value = .str t.kind.typeString)
    (h1 : Steps (oneField t.kind.arms) (Entry.dflt t.kind.decls) (toStream (f ++ (ps ++ c))) e1
      (toStream (ps ++ c)))
    (h2 : Steps (oneField t.kind.arms) e1 (toStream (ps ++ c)) e2 (toStream c))
    (hps : ∀ p ∈ ps, FieldCode p.code)
    (hcl : ∀ p ∈ ps, ∀ q ∈ ps, (p.code, q.code) ∉ t.clashes)
    (hq : Reordered CodePair.code ps qs)
    (hr : (load codec h0 order (toStream (a ++ (b ++ op :: (f ++ (ps ++ c)))))).1 ≠
      .error .outOfFuel) :
    (load codec h0 order (toStream (a ++ (b ++ op :: (f ++ (qs ++ c)))))).1 =
      (load codec h0 order (toStream (a ++ (b ++ op :: (f ++ (ps ++ c)))))).1 := by
  have hl := hq.length
  refine Same.load_eq (inTable_load h (by simp; omega) ?_) hr
  have hf := fine_toStream (b ++ op :: (f ++ (ps ++ c)))
  simp only [toStream_append, toStream_cons] at hf hs h1 h2 ⊢
  exact entries_order t hps hcl hq hop hf hs h1 h2

/-- The pairs of a block. -/
theorem C67_block {a f ps qs c : List CodePair} {e1 e2 : Entry Blocks.decls}
    (h : InBlock codec h0 order a (f ++ (ps ++ c)))
    (h1 : Steps (oneField Blocks.arms) Block.dflt.entry (toStream (f ++ (ps ++ c))) e1
      (toStream (ps ++ c)))
    (h2 : Steps (oneField Blocks.arms) e1 (toStream (ps ++ c)) e2 (toStream c))
    (hps : ∀ p ∈ ps, FieldCode p.code) (hq : Reordered CodePair.code ps qs)
    (hr : (load codec h0 order (toStream (a ++ (f ++ (ps ++ c))))).1 ≠ .error .outOfFuel) :
    (load codec h0 order (toStream (a ++ (f ++ (qs ++ c))))).1 =
      (load codec h0 order (toStream (a ++ (f ++ (ps ++ c))))).1 := by
  have hl := hq.length
  refine Same.load_eq (inBlock_load h (by simp; omega) ?_) hr
  have hf := fine_toStream (f ++ (ps ++ c))
  simp only [toStream_append] at hf h1 h2 ⊢
  exact blockRead_order hps hq hf h1 h2

/-- The pairs of a class. -/
theorem C67_class {a b f ps qs c : List CodePair} {op : CodePair} {s : Str} {cs : List Class}
    {c1 c2 : Class} {d : Drawing Img}
    (h : InSection codec h0 order str!"CLASSES" a (b ++ op :: (f ++ (ps ++ c))) d)
    (hs : Steps (oneClass d.version) [] (toStream (b ++ op :: (f ++ (ps ++ c)))) cs
      (toStream (op :: (f ++ (ps ++ c)))))
    (hop : op.code = 0 ∧ op.value = .str s) (hsec : s ≠ str!"ENDSEC")
    (h1 : Steps (oneClassPair d.version) (if d.version ≤ .r13 then
      { Class.dflt with recordName := s } else Class.dflt) (toStream (f ++ (ps ++ c))) c1
      (toStream (ps ++ c)))
    (h2 : Steps (oneClassPair d.version) c1 (toStream (ps ++ c)) c2 (toStream c))
    (hps : ∀ p ∈ ps, FieldCode p.code) (hq : Reordered CodePair.code ps qs)
    (hr : (load codec h0 order (toStream (a ++ (b ++ op :: (f ++ (ps ++ c)))))).1 ≠
      .error .outOfFuel) :
    (load codec h0 order (toStream (a ++ (b ++ op :: (f ++ (qs ++ c)))))).1 =
      (load codec h0 order (toStream (a ++ (b ++ op :: (f ++ (ps ++ c)))))).1 := by
  have hl := hq.length
  refine Same.load_eq (inSection_same h (by simp; omega) ?_) hr
  have hf := fine_toStream (b ++ op :: (f ++ (ps ++ c)))
  unfold readSection
  rw [if_neg (by decide), if_pos rfl]
  simp only [toStream_append, toStream_cons] at hf hs h1 h2 ⊢
  exact (classes_order d.version hps hq hop hsec hf hs h1 h2).bind

/-- The variables of the header. -/
theorem C67_header {a b c : List CodePair} {vs ws : List Variable} {q : CodePair}
    (hq : q.code = 0 ∨ q.code = 9) {d : Drawing Img} {h1 h2 : Header}
    (h : InSection codec h0 order str!"HEADER" a (b ++ (vs.flatMap Variable.pairs ++ q :: c)) d)
    (hs : Steps oneVariable h0 (toStream (b ++ (vs.flatMap Variable.pairs ++ q :: c))) h1
      (toStream (vs.flatMap Variable.pairs ++ q :: c)))
    (hs' : Steps oneVariable h1 (toStream (vs.flatMap Variable.pairs ++ q :: c)) h2
      (toStream (q :: c)))
    (hvs : ∀ v ∈ vs, v.Proper) (hw : Reordered Variable.name vs ws)
    (hr : (load codec h0 order (toStream (a ++ (b ++ (vs.flatMap Variable.pairs ++ q :: c))))).1 ≠
      .error .outOfFuel) :
    (load codec h0 order (toStream (a ++ (b ++ (ws.flatMap Variable.pairs ++ q :: c))))).1 =
      (load codec h0 order (toStream (a ++ (b ++ (vs.flatMap Variable.pairs ++ q :: c))))).1 := by
  have hl := (flatMap_length hw).1
  refine Same.load_eq (inSection_same h
    (by rw [List.length_append, List.length_append, List.length_append, List.length_append]; omega)
    ?_) hr
  have hf := fine_toStream (b ++ (vs.flatMap Variable.pairs ++ q :: c))
  unfold readSection
  rw [if_pos rfl]
  simp only [toStream_append, toStream_cons] at hf hs hs' ⊢
  exact (header_order hvs hw hq hf hs hs').bind

/-! ### Where the order does matter -/

private def noImages : ImageCodec Unit :=
  ⟨fun _ => .error .imageError, fun _ => .error .imageError⟩

private def z0 (s : Str) : CodePair := .newStr 0 s

private theorem reordered_of {π κ : Type} [DecidableEq κ] {key : π → κ} {ps qs : List π}
    (h : ∀ c ∈ (ps ++ qs).map key, ps.filter (fun p => decide (key p = c)) =
      qs.filter (fun p => decide (key p = c))) : Reordered key ps qs := by
  intro c
  by_cases hc : c ∈ (ps ++ qs).map key
  · exact h c hc
  · have hn : ∀ p ∈ ps ++ qs, ¬ key p = c := fun p hp e => hc (List.mem_map.mpr ⟨p, hp, e⟩)
    rw [List.filter_eq_nil_iff.mpr fun p hp => by simpa using hn p (by simp [hp]),
      List.filter_eq_nil_iff.mpr fun p hp => by simpa using hn p (by simp [hp])]

/-- An entity alone in a file. -/
private def entityFile (name : Str) (ps : List CodePair) : List CodePair :=
  z0 str!"SECTION" :: .newStr 2 str!"ENTITIES" :: z0 name :: ps ++ [z0 str!"ENDSEC", z0 str!"EOF"]

/-- An object alone in a file. -/
private def objectFile (name : Str) (ps : List CodePair) : List CodePair :=
  z0 str!"SECTION" :: .newStr 2 str!"OBJECTS" :: z0 name :: ps ++ [z0 str!"ENDSEC", z0 str!"EOF"]

/-- A table entry alone in a file. -/
private def tableFile (name : Str) (ps : List CodePair) : List CodePair :=
  z0 str!"SECTION" :: .newStr 2 str!"TABLES" :: z0 str!"TABLE" :: .newStr 2 name :: z0 name :: ps ++
    [z0 str!"ENDTAB", z0 str!"ENDSEC", z0 str!"EOF"]

/-- There are pairs and the same pairs in another order, with which two different drawings are
loaded. -/
private def OrderMatters (file : List CodePair → List CodePair) : Prop :=
  ∃ ps qs, Reordered CodePair.code ps qs ∧ (∀ p ∈ ps, FieldCode p.code) ∧
    ∃ d d', (load noImages (Rec.dflt _) [] (toStream (file ps))).1 = .ok d ∧
      (load noImages (Rec.dflt _) [] (toStream (file qs))).1 = .ok d' ∧ d ≠ d'

/-- Whether both are loaded and look different. -/
private def differ {α : Type} [DecidableEq α] (f : Drawing Unit → α) (s s' : List CodePair) : Bool :=
  match (load noImages (Rec.dflt _) [] (toStream s)).1,
    (load noImages (Rec.dflt _) [] (toStream s')).1 with
  | .ok d, .ok d' => decide (f d ≠ f d')
  | _, _ => false

private theorem orderMatters_of {α : Type} [DecidableEq α] (f : Drawing Unit → α)
    {file : List CodePair → List CodePair} {ps qs : List CodePair}
    (hr : Reordered CodePair.code ps qs) (hp : ∀ p ∈ ps, FieldCode p.code)
    (h : differ f (file ps) (file qs) = true) : OrderMatters file := by
  unfold differ at h
  split at h
  · rename_i d d' h1 h2
    refine ⟨ps, qs, hr, hp, d, d', h1, h2, fun e => ?_⟩
    rw [e] at h
    simp at h
  · cases h

private def entityPairs (d : Drawing Unit) : List CodePair :=
  d.entities.flatMap (Entity.pairs .r2018 false)

private def objectPairs (d : Drawing Unit) : List (Except DxfErr (List CodePair)) :=
  d.objects.map (Object.pairs .r2018)

private def two : F64 := ⟨0x4000000000000000#64⟩

instance (c : Int) : Decidable (FieldCode c) := by unfold FieldCode; infer_instance

/-- For the excepted kinds and codes the order does matter:

* the y of a vertex of a light-weight polyline belongs to the vertex begun last,
* the text of a dimension is lost behind the marker of its subclass,
* a dictionary pairs names with the handles that follow them,
* two codes of a dimension style, and two of a viewport, are stored in one field. -/
theorem C67_needed :
    OrderMatters (entityFile str!"LWPOLYLINE") ∧ OrderMatters (entityFile str!"DIMENSION") ∧
    OrderMatters (objectFile str!"DICTIONARY") ∧ OrderMatters (tableFile str!"DIMSTYLE") ∧
    OrderMatters (tableFile str!"VPORT") := by
  refine ⟨?_, ?_, ?_, ?_, ?_⟩
  · exact orderMatters_of entityPairs
      (ps := [.newF64 10 .unit, .newF64 20 two, .newF64 10 two, .newF64 20 .unit])
      (qs := [.newF64 10 .unit, .newF64 10 two, .newF64 20 two, .newF64 20 .unit])
      (reordered_of (by decide)) (by decide) (by decide +kernel)
  · exact orderMatters_of entityPairs
      (ps := [.newStr 1 str!"text", .newStr 100 str!"AcDbAlignedDimension"])
      (qs := [.newStr 100 str!"AcDbAlignedDimension", .newStr 1 str!"text"])
      (reordered_of (by decide)) (by decide) (by decide +kernel)
  · exact orderMatters_of objectPairs
      (ps := [.newStr 3 str!"a", .newStr 350 str!"1", .newStr 3 str!"b", .newStr 350 str!"2"])
      (qs := [.newStr 3 str!"a", .newStr 3 str!"b", .newStr 350 str!"1", .newStr 350 str!"2"])
      (reordered_of (by decide)) (by decide) (by decide +kernel)
  · exact orderMatters_of (fun d => (d.tables .dimStyle).map fun e => (e.fields 5 : Str))
      (ps := [.newStr 6 str!"a", .newStr 343 str!"b"]) (qs := [.newStr 343 str!"b", .newStr 6 str!"a"])
      (reordered_of (by decide)) (by decide) (by decide +kernel)
  · exact orderMatters_of (fun d => (d.tables .viewPort).map fun e => (e.fields 11 : F64))
      (ps := [.newF64 40 .unit, .newF64 45 two]) (qs := [.newF64 45 two, .newF64 40 .unit])
      (reordered_of (by decide)) (by decide) (by decide +kernel)

/-! ### The hypotheses can be met -/

section Examples

variable {d0 : Drawing Img} (hn : new h0 order = .ok d0)
include hn

private theorem inside (name : Str) (b : List CodePair) :
    ∃ d, InSection codec h0 order name [z0 str!"SECTION", .newStr 2 name] b d :=
  ⟨d0.clear, .mk [] (z0 str!"SECTION") (.newStr 2 name) b d0.clear ⟨rfl, rfl⟩ ⟨rfl, rfl⟩ fun d1 h1 => by
    cases hn.symm.trans h1; exact .here⟩

/-- The coordinates of a line and its layer. -/
example : (load codec h0 order (toStream ([z0 str!"SECTION", .newStr 2 str!"ENTITIES"] ++ ([] ++
      z0 str!"LINE" :: ([.newStr 5 str!"1"] ++ ([.newF64 20 two, .newF64 10 .unit, .newStr 8 str!"a"] ++
        [z0 str!"ENDSEC", z0 str!"EOF"])))))).1 =
    (load codec h0 order (toStream ([z0 str!"SECTION", .newStr 2 str!"ENTITIES"] ++ ([] ++
      z0 str!"LINE" :: ([.newStr 5 str!"1"] ++ ([.newStr 8 str!"a", .newF64 10 .unit, .newF64 20 two] ++
        [z0 str!"ENDSEC", z0 str!"EOF"])))))).1 := by
  obtain ⟨d, h⟩ := inside (codec := codec) hn str!"ENTITIES" ([] ++ z0 str!"LINE" ::
    ([.newStr 5 str!"1"] ++ ([.newStr 8 str!"a", .newF64 10 .unit, .newF64 20 two] ++
      [z0 str!"ENDSEC", z0 str!"EOF"])))
  refine C67_entity (k := .line) (x := str!"LINE") (.drawing _ _ d h) .here ⟨rfl, rfl⟩
    (by decide +kernel) (.next rfl .here) (.next rfl (.next rfl (.next rfl .here)))
    (by decide) (by decide) (reordered_of (by decide)) ?_
  unfold load
  rw [hn]
  exact fun h => nomatch h

/-- The name and the colour of a layer. -/
example : ∃ e1 e2 : TableItem TName.layer.kind,
    Steps (oneField TName.layer.kind.arms) (Entry.dflt TName.layer.kind.decls)
      (toStream ([.newStr 5 str!"1"] ++ ([.newStr 2 str!"a", .newI16 62 1#16] ++ [z0 str!"ENDTAB"]))) e1
      (toStream ([.newStr 2 str!"a", .newI16 62 1#16] ++ [z0 str!"ENDTAB"])) ∧
    Steps (oneField TName.layer.kind.arms) e1
      (toStream ([.newStr 2 str!"a", .newI16 62 1#16] ++ [z0 str!"ENDTAB"])) e2
      (toStream [z0 str!"ENDTAB"]) := ⟨_, _, .next rfl .here, .next rfl (.next rfl .here)⟩

/-- Two variables of the header. -/
example : (load codec h0 order (toStream ([z0 str!"SECTION", .newStr 2 str!"HEADER"] ++ ([] ++
      ([Variable.mk (.newStr 9 str!"$CLAYER") str!"$CLAYER" [.newStr 8 str!"a"],
        .mk (.newStr 9 str!"$MENU") str!"$MENU" [.newStr 1 str!"x"]].flatMap Variable.pairs ++
        z0 str!"ENDSEC" :: [z0 str!"EOF"]))))).1 =
    (load codec h0 order (toStream ([z0 str!"SECTION", .newStr 2 str!"HEADER"] ++ ([] ++
      ([Variable.mk (.newStr 9 str!"$MENU") str!"$MENU" [.newStr 1 str!"x"],
        .mk (.newStr 9 str!"$CLAYER") str!"$CLAYER" [.newStr 8 str!"a"]].flatMap Variable.pairs ++
        z0 str!"ENDSEC" :: [z0 str!"EOF"]))))).1 := by
  obtain ⟨d, h⟩ := inside (codec := codec) hn str!"HEADER" ([] ++
    ([Variable.mk (.newStr 9 str!"$MENU") str!"$MENU" [.newStr 1 str!"x"],
      .mk (.newStr 9 str!"$CLAYER") str!"$CLAYER" [.newStr 8 str!"a"]].flatMap Variable.pairs ++
        z0 str!"ENDSEC" :: [z0 str!"EOF"]))
  refine C67_header (.inl rfl) h .here (.next rfl (.next rfl .here)) ?_ ?_ ?_
  · intro v hv
    simp only [List.mem_cons, List.not_mem_nil, or_false] at hv
    rcases hv with rfl | rfl <;> exact ⟨rfl, rfl, by decide⟩
  · intro c
    by_cases h1 : str!"$MENU" = c
    · subst h1; rfl
    · by_cases h2 : str!"$CLAYER" = c
      · subst h2; rfl
      · simp [List.filter, h1, h2]
  · unfold load
    rw [hn]
    exact fun h => nomatch h

end Examples

/-- The same for objects, blocks and classes. -/
example : ∃ st1 st2, Steps (oneObjectPair .placeHolder) (OMode.start, Entry.dflt _, {})
      (toStream ([.newStr 5 str!"1"] ++ ([.newStr 330 str!"2", .newStr 1 str!"x"] ++ [z0 str!"ENDSEC"])))
      st1 (toStream ([.newStr 330 str!"2", .newStr 1 str!"x"] ++ [z0 str!"ENDSEC"])) ∧
    Steps (oneObjectPair .placeHolder) st1
      (toStream ([.newStr 330 str!"2", .newStr 1 str!"x"] ++ [z0 str!"ENDSEC"])) st2
      (toStream [z0 str!"ENDSEC"]) := ⟨_, _, .next rfl .here, .next rfl (.next rfl .here)⟩

example : ∃ e1 e2, Steps (oneField Blocks.arms) Block.dflt.entry
      (toStream ([.newStr 5 str!"1"] ++ ([.newStr 8 str!"2", .newStr 2 str!"x"] ++ [z0 str!"ENDBLK"])))
      e1 (toStream ([.newStr 8 str!"2", .newStr 2 str!"x"] ++ [z0 str!"ENDBLK"])) ∧
    Steps (oneField Blocks.arms) e1
      (toStream ([.newStr 8 str!"2", .newStr 2 str!"x"] ++ [z0 str!"ENDBLK"])) e2
      (toStream [z0 str!"ENDBLK"]) := ⟨_, _, .next rfl .here, .next rfl (.next rfl .here)⟩

example : ∃ c1 c2, Steps (oneClassPair .r2000) Class.dflt
      (toStream ([.newStr 1 str!"1"] ++ ([.newStr 2 str!"2", .newStr 3 str!"x"] ++ [z0 str!"ENDSEC"])))
      c1 (toStream ([.newStr 2 str!"2", .newStr 3 str!"x"] ++ [z0 str!"ENDSEC"])) ∧
    Steps (oneClassPair .r2000) c1
      (toStream ([.newStr 2 str!"2", .newStr 3 str!"x"] ++ [z0 str!"ENDSEC"])) c2
      (toStream [z0 str!"ENDSEC"]) := ⟨_, _, .next rfl .here, .next rfl (.next rfl .here)⟩

end Dxf
