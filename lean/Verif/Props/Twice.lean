import Verif.Lemmas.Twice
import Verif.Lemmas.InsertPlaces

/-! C70: a value that is given twice counts as it was given last.

In every theorem the pair `p` is followed by the pairs `ps` and by the pair `q` with the same code,
all of them in one item, and loading gives the same result without `p`, be it a drawing or an error
found later.  What comes before and after is arbitrary, as long as loading comes to `p` and gets
through to what follows `q`. -/

namespace Dxf

open Drawing

variable {Img : Type} {codec : ImageCodec Img} {h0 : Header} {order : List Str}

private theorem run_split (f l c : List CodePair) :
    toStream (f ++ (l ++ c)) = toStream f ++ (toStream l ++ toStream c) := by
  rw [toStream_append, toStream_append]

/-- A value of an entity, in the drawing or in a block. -/
theorem C70_entity {a b f ps c : List CodePair} {op p q : CodePair} {x : Str} {k : EName}
    {xs : List Flat} {st1 st2 : Mode × Entry k.decls}
    (h : BeforeEntities codec h0 order a (b ++ op :: (f ++ (ps ++ [q] ++ c))))
    (hs : Steps oneEntity [] (toStream (b ++ op :: (f ++ (ps ++ [q] ++ c)))) xs
      (toStream (op :: (f ++ (ps ++ [q] ++ c)))))
    (hop : op.code = 0 ∧ op.value = .str x) (hx : EName.ofType x = some k)
    (h1 : Steps (onePair k) (Mode.start, Entry.dflt k.decls) (toStream (f ++ (ps ++ [q] ++ c))) st1
      (toStream (ps ++ [q] ++ c)))
    (h2 : Steps (onePair k) st1 (toStream (p :: (ps ++ [q]) ++ c)) st2 (toStream c))
    (hps : ∀ r ∈ p :: (ps ++ [q]), FieldCode r.code ∧ r.code ∉ k.fixed)
    (hcl : ∀ r ∈ ps, (p.code, r.code) ∉ k.clashes ∧ (r.code, p.code) ∉ k.clashes)
    (hq : q.code = p.code) (hl : p.code ∉ k.lists)
    (hr : (load codec h0 order (toStream (a ++ (b ++ op :: (f ++ (ps ++ [q] ++ c)))))).1 ≠
      .error .outOfFuel) :
    (load codec h0 order (toStream (a ++ (b ++ op :: (f ++ (p :: (ps ++ [q]) ++ c)))))).1 =
      (load codec h0 order (toStream (a ++ (b ++ op :: (f ++ (ps ++ [q] ++ c)))))).1 := by
  refine Same.load_eq (entities_load hop.1 hop.1 h (.inl (by simp)) ?_) hr
  have hf := fine_toStream (b ++ op :: (f ++ (ps ++ [q] ++ c)))
  have hf' := fine_toStream (f ++ (ps ++ [q] ++ c))
  have he : x ≠ str!"ENDSEC" ∧ x ≠ str!"ENDBLK" := by
    constructor <;> (intro hx'; rw [hx'] at hx; revert hx; rw [show EName.ofType _ = none by
      decide +kernel]; simp)
  rw [toStream_append b, toStream_cons op, toStream_append b, toStream_cons op]
  rw [toStream_append b, toStream_cons op] at hf hs
  refine Steps.ins nextEntity_ok hop.1 hop.1 (by simp [toStream_length]) hs hf fun hc => ?_
  refine nextEntity_item hop hx he (by simp [toStream_length]) ?_ hc
  rw [run_split] at hf'
  rw [run_split, toStream_append (ps ++ [q])] at h1
  rw [toStream_append (p :: (ps ++ [q]))] at h2
  rw [run_split, run_split]
  exact item_twice k.kind.eof (fun p st => k.step_locC (fun _ h => h) p st) (act := k.act) hq
    (fun r hr => ⟨(hps r hr).1.outside, (hps r hr).1.1, fun st => k.step_field (hps r hr).1 st⟩)
    (fun r _ h => EName.act_covers (hps p (by simp)).2 h hl)
    (fun r hr h => .inr (EName.act_swaps (hps p (by simp)).2 (hps r (by simp [hr])).2 h.symm
      (hcl r hr).1 (hcl r hr).2)) hf' h1 h2

/-- A value of an object. -/
theorem C70_object {a b f ps c : List CodePair} {op p q : CodePair} {x : Str} {k : OName}
    {xs : List Object} {st1 st2 : OState k} {d : Drawing Img}
    (h : InSection codec h0 order str!"OBJECTS" a (b ++ op :: (f ++ (ps ++ [q] ++ c))) d)
    (hs : Steps oneObject [] (toStream (b ++ op :: (f ++ (ps ++ [q] ++ c)))) xs
      (toStream (op :: (f ++ (ps ++ [q] ++ c)))))
    (hop : op.code = 0 ∧ op.value = .str x) (hx : OName.ofType x = some k)
    (h1 : Steps (oneObjectPair k) (OMode.start, Entry.dflt k.decls, {})
      (toStream (f ++ (ps ++ [q] ++ c))) st1 (toStream (ps ++ [q] ++ c)))
    (h2 : Steps (oneObjectPair k) st1 (toStream (p :: (ps ++ [q]) ++ c)) st2 (toStream c))
    (hk : k ∉ OName.nested)
    (hps : ∀ r ∈ p :: (ps ++ [q]), FieldCode r.code ∧ r.code ∉ k.fixed)
    (hq : q.code = p.code) (hl : p.code ∉ k.lists)
    (hr : (load codec h0 order (toStream (a ++ (b ++ op :: (f ++ (ps ++ [q] ++ c)))))).1 ≠
      .error .outOfFuel) :
    (load codec h0 order (toStream (a ++ (b ++ op :: (f ++ (p :: (ps ++ [q]) ++ c)))))).1 =
      (load codec h0 order (toStream (a ++ (b ++ op :: (f ++ (ps ++ [q] ++ c)))))).1 := by
  refine Same.load_eq (inSection_same h (by simp) ?_) hr
  have hf := fine_toStream (b ++ op :: (f ++ (ps ++ [q] ++ c)))
  have hf' := fine_toStream (f ++ (ps ++ [q] ++ c))
  have he : x ≠ str!"ENDSEC" ∧ x ≠ str!"ENDBLK" := by
    constructor <;> (intro hx'; rw [hx'] at hx; revert hx; rw [show OName.ofType _ = none by
      decide +kernel]; simp)
  unfold readSection
  rw [if_neg (by decide), if_neg (by decide), if_neg (by decide), if_neg (by decide),
    if_neg (by decide), if_pos rfl]
  refine objectSection_same d ?_
  rw [toStream_append b, toStream_cons op, toStream_append b, toStream_cons op]
  rw [toStream_append b, toStream_cons op] at hf hs
  refine Steps.ins nextObject_ok hop.1 hop.1 (by simp [toStream_length]) hs hf fun _ => ?_
  refine nextObject_item hop hx he ?_
  rw [run_split] at hf'
  rw [run_split, toStream_append (ps ++ [q])] at h1
  rw [toStream_append (p :: (ps ++ [q]))] at h2
  rw [run_split, run_split]
  exact item_twice k.kind.eof (fun p st => k.step_outside hk p st) (act := k.act) hq
    (fun r hr => ⟨(hps r hr).1.outside, (hps r hr).1.1,
      fun st => OName.step_field hk (hps r hr).1 (hps r hr).2 st⟩)
    (fun r _ h => OName.act_covers hk (hps p (by simp)).2 h hl)
    (fun r hr h => .inr (OName.act_swaps hk (hps p (by simp)).2 (hps r (by simp [hr])).2 h.symm))
    hf' h1 h2

/-- A value of a table entry. -/
theorem C70_table {t : TName} {a b f ps c : List CodePair} {op p q : CodePair}
    {xs : List (TableItem t.kind)} {e1 e2 : TableItem t.kind}
    (h : InTable codec h0 order t a (b ++ op :: (f ++ (ps ++ [q] ++ c))))
    (hs : Steps (oneEntry t.kind) [] (toStream (b ++ op :: (f ++ (ps ++ [q] ++ c)))) xs
      (toStream (op :: (f ++ (ps ++ [q] ++ c)))))
    (hop : op.code = 0 ∧ op.value = .str t.kind.typeString)
    (h1 : Steps (oneField t.kind.arms) (Entry.dflt t.kind.decls) (toStream (f ++ (ps ++ [q] ++ c)))
      e1 (toStream (ps ++ [q] ++ c)))
    (h2 : Steps (oneField t.kind.arms) e1 (toStream (p :: (ps ++ [q]) ++ c)) e2 (toStream c))
    (hps : ∀ r ∈ p :: (ps ++ [q]), FieldCode r.code) (hq : q.code = p.code) (hl : p.code ∉ t.lists)
    (hr : (load codec h0 order (toStream (a ++ (b ++ op :: (f ++ (ps ++ [q] ++ c)))))).1 ≠
      .error .outOfFuel) :
    (load codec h0 order (toStream (a ++ (b ++ op :: (f ++ (p :: (ps ++ [q]) ++ c)))))).1 =
      (load codec h0 order (toStream (a ++ (b ++ op :: (f ++ (ps ++ [q] ++ c)))))).1 := by
  refine Same.load_eq (inTable_load h (by simp) ?_) hr
  have hf := fine_toStream (b ++ op :: (f ++ (ps ++ [q] ++ c)))
  have hf' := fine_toStream (f ++ (ps ++ [q] ++ c))
  rw [toStream_append b, toStream_cons op, toStream_append b, toStream_cons op]
  rw [toStream_append b, toStream_cons op] at hf hs
  refine entries_item t.kind hop (by simp [toStream_length]) hf hs ?_
  rw [run_split] at hf'
  rw [run_split, toStream_append (ps ++ [q])] at h1
  rw [toStream_append (p :: (ps ++ [q]))] at h2
  rw [run_split, run_split]
  exact item_twice false (fun p st => entryApply_locC (fun _ h => h) t.kind.arms p st)
    (act := fieldAct t.kind.arms) hq
    (fun r hr => ⟨(hps r hr).outside, (hps r hr).1, fun st => entryApply_field _ (hps r hr) st⟩)
    (fun r _ h => fieldAct_covers t.covers_ok h hl) (fun r _ h => t.either h) hf' h1 h2

/-- A value of a block. -/
theorem C70_block {a f ps c : List CodePair} {p q : CodePair} {e1 e2 : Entry Blocks.decls}
    (h : InBlock codec h0 order a (f ++ (ps ++ [q] ++ c)))
    (h1 : Steps (oneField Blocks.arms) Block.dflt.entry (toStream (f ++ (ps ++ [q] ++ c))) e1
      (toStream (ps ++ [q] ++ c)))
    (h2 : Steps (oneField Blocks.arms) e1 (toStream (p :: (ps ++ [q]) ++ c)) e2 (toStream c))
    (hps : ∀ r ∈ p :: (ps ++ [q]), FieldCode r.code) (hq : q.code = p.code)
    (hr : (load codec h0 order (toStream (a ++ (f ++ (ps ++ [q] ++ c))))).1 ≠ .error .outOfFuel) :
    (load codec h0 order (toStream (a ++ (f ++ (p :: (ps ++ [q]) ++ c))))).1 =
      (load codec h0 order (toStream (a ++ (f ++ (ps ++ [q] ++ c))))).1 := by
  refine Same.load_eq (inBlock_load h (by simp) ?_) hr
  have hf := fine_toStream (f ++ (ps ++ [q] ++ c))
  refine blockRead_item (by simp [toStream_length]) ?_
  rw [run_split] at hf
  rw [run_split, toStream_append (ps ++ [q])] at h1
  rw [toStream_append (p :: (ps ++ [q]))] at h2
  rw [run_split, run_split]
  exact item_twice false (fun p st => entryApply_locC (fun _ h => h) Blocks.arms p st)
    (act := fieldAct Blocks.arms) hq
    (fun r hr => ⟨(hps r hr).outside, (hps r hr).1, fun st => entryApply_field _ (hps r hr) st⟩)
    (fun r _ h => fieldAct_covers block_covers h (by simp))
    (fun r _ h => .inr (fieldAct_swaps block_clashes h.symm (by simp) (by simp))) hf h1 h2

/-- A value of a class. -/
theorem C70_class {a b f ps c : List CodePair} {op p q : CodePair} {s : Str} {cs : List Class}
    {c1 c2 : Class} {d : Drawing Img}
    (h : InSection codec h0 order str!"CLASSES" a (b ++ op :: (f ++ (ps ++ [q] ++ c))) d)
    (hs : Steps (oneClass d.version) [] (toStream (b ++ op :: (f ++ (ps ++ [q] ++ c)))) cs
      (toStream (op :: (f ++ (ps ++ [q] ++ c)))))
    (hop : op.code = 0 ∧ op.value = .str s) (hsec : s ≠ str!"ENDSEC")
    (h1 : Steps (oneClassPair d.version) (if d.version ≤ .r13 then
      { Class.dflt with recordName := s } else Class.dflt) (toStream (f ++ (ps ++ [q] ++ c))) c1
      (toStream (ps ++ [q] ++ c)))
    (h2 : Steps (oneClassPair d.version) c1 (toStream (p :: (ps ++ [q]) ++ c)) c2 (toStream c))
    (hps : ∀ r ∈ p :: (ps ++ [q]), FieldCode r.code) (hq : q.code = p.code)
    (hr : (load codec h0 order (toStream (a ++ (b ++ op :: (f ++ (ps ++ [q] ++ c)))))).1 ≠
      .error .outOfFuel) :
    (load codec h0 order (toStream (a ++ (b ++ op :: (f ++ (p :: (ps ++ [q]) ++ c)))))).1 =
      (load codec h0 order (toStream (a ++ (b ++ op :: (f ++ (ps ++ [q] ++ c)))))).1 := by
  refine Same.load_eq (inSection_same h (by simp) ?_) hr
  have hf := fine_toStream (b ++ op :: (f ++ (ps ++ [q] ++ c)))
  have hf' := fine_toStream (f ++ (ps ++ [q] ++ c))
  unfold readSection
  rw [if_neg (by decide), if_pos rfl]
  rw [toStream_append b, toStream_cons op, toStream_append b, toStream_cons op]
  rw [toStream_append b, toStream_cons op] at hf hs
  refine (classes_item d.version hop hsec (by simp [toStream_length]) hf hs ?_).bind
  rw [run_split] at hf'
  rw [run_split, toStream_append (ps ++ [q])] at h1
  rw [toStream_append (p :: (ps ++ [q]))] at h2
  rw [run_split, run_split]
  exact item_twice false (step := fun p c => Rd.lift (Class.apply d.version p c))
    (fun p st => .lift) (act := Class.apply d.version) hq
    (fun r hr => ⟨(hps r hr).outside, (hps r hr).1, fun st => rfl⟩)
    (fun r _ h => classApply_covers d.version h)
    (fun r _ h => .inr (classApply_swaps d.version h.symm)) hf' h1 h2

/-- A variable of the header: every code of the earlier one is given again by the later one. -/
theorem C70_header {a b c : List CodePair} {v w : Variable} {vs : List Variable} {q : CodePair}
    (hq : q.code = 0 ∨ q.code = 9) {d : Drawing Img} {h1 h2 : Header}
    (h : InSection codec h0 order str!"HEADER" a
      (b ++ ((vs ++ [w]).flatMap Variable.pairs ++ q :: c)) d)
    (hs : Steps oneVariable h0 (toStream (b ++ ((vs ++ [w]).flatMap Variable.pairs ++ q :: c))) h1
      (toStream ((vs ++ [w]).flatMap Variable.pairs ++ q :: c)))
    (hs' : Steps oneVariable h1 (toStream ((v :: (vs ++ [w])).flatMap Variable.pairs ++ q :: c)) h2
      (toStream (q :: c)))
    (hvs : ∀ x ∈ v :: (vs ++ [w]), x.Proper) (hn : w.name = v.name)
    (hne : ∀ x ∈ vs, x.name ≠ v.name)
    (hc : ∀ p ∈ v.values, ∃ p' ∈ w.values, p'.code = p.code)
    (hr : (load codec h0 order (toStream (a ++
      (b ++ ((vs ++ [w]).flatMap Variable.pairs ++ q :: c))))).1 ≠ .error .outOfFuel) :
    (load codec h0 order (toStream (a ++
        (b ++ ((v :: (vs ++ [w])).flatMap Variable.pairs ++ q :: c))))).1 =
      (load codec h0 order (toStream (a ++
        (b ++ ((vs ++ [w]).flatMap Variable.pairs ++ q :: c))))).1 := by
  have hle : ((vs ++ [w]).flatMap Variable.pairs).length + 1 ≤
      ((v :: (vs ++ [w])).flatMap Variable.pairs).length := by
    rw [List.flatMap_cons, List.length_append]
    unfold Variable.pairs
    rw [List.length_cons]
    omega
  generalize hl : vs ++ [w] = l at *
  refine Same.load_eq (inSection_same h
    (by rw [List.length_append, List.length_append, List.length_append, List.length_append]; omega)
    ?_) hr
  have hf := fine_toStream (b ++ (l.flatMap Variable.pairs ++ q :: c))
  have hf2 := fine_toStream ((v :: l).flatMap Variable.pairs ++ q :: c)
  unfold readSection
  rw [if_pos rfl]
  rw [toStream_append b, toStream_append (l.flatMap Variable.pairs), toStream_cons] at hf hs ⊢
  rw [toStream_append b, toStream_append ((v :: l).flatMap Variable.pairs), toStream_cons]
  rw [toStream_append ((v :: l).flatMap Variable.pairs), toStream_cons] at hf2 hs'
  have f2 := steps_variables hvs hq hf2 hs'
  have f1 : foldAct varAct h1 l = .ok h2 := by
    subst hl
    exact foldAct_drop (l := []) (varAct_covers hn hc)
      (fun r hr => .inr (varAct_swaps (hne r hr).symm)) f2
  exact (header_replace (fun x hx => hvs x (List.mem_cons_of_mem _ hx)) hvs hq f1 f2
    (by rw [List.length_cons]; omega) (by omega) hf hs).bind

/-! ### Where both values count -/

private def noImages : ImageCodec Unit :=
  ⟨fun _ => .error .imageError, fun _ => .error .imageError⟩

private def z0 (s : Str) : CodePair := .newStr 0 s

/-- An entity alone in a file. -/
private def entityFile (name : Str) (ps : List CodePair) : List CodePair :=
  z0 str!"SECTION" :: .newStr 2 str!"ENTITIES" :: z0 name :: ps ++ [z0 str!"ENDSEC", z0 str!"EOF"]

/-- An object alone in a file. -/
private def objectFile (name : Str) (ps : List CodePair) : List CodePair :=
  z0 str!"SECTION" :: .newStr 2 str!"OBJECTS" :: z0 name :: ps ++ [z0 str!"ENDSEC", z0 str!"EOF"]

/-- A table entry alone in a file. -/
private def tableFile (name : Str) (ps : List CodePair) : List CodePair :=
  z0 str!"SECTION" :: .newStr 2 str!"TABLES" :: z0 str!"TABLE" :: .newStr 2 name :: z0 name :: ps ++
    [z0 str!"ENDTAB", z0 str!"ENDSEC", z0 str!"EOF"]

/-- A header alone in a file. -/
private def headerFile (vs : List Variable) : List CodePair :=
  z0 str!"SECTION" :: .newStr 2 str!"HEADER" :: vs.flatMap Variable.pairs ++
    [z0 str!"ENDSEC", z0 str!"EOF"]

/-- The point of insertion, with some of its coordinates. -/
private def base (ps : List CodePair) : Variable :=
  ⟨.newStr 9 str!"$INSBASE", str!"$INSBASE", ps⟩

/-- Both are loaded, and the drawings are different. -/
private def Differ (s s' : List CodePair) : Prop :=
  ∃ d d', (load noImages (Rec.dflt _) [] (toStream s)).1 = .ok d ∧
    (load noImages (Rec.dflt _) [] (toStream s')).1 = .ok d' ∧ d ≠ d'

/-- There is a value that is given again later, and that is not without effect. -/
private def BothCount (file : List CodePair → List CodePair) : Prop :=
  ∃ f p ps q, q.code = p.code ∧ (∀ r ∈ f ++ p :: (ps ++ [q]), FieldCode r.code) ∧
    Differ (file (f ++ p :: (ps ++ [q]))) (file (f ++ (ps ++ [q])))

/-- Whether both are loaded and look different. -/
private def differ {α : Type} [DecidableEq α] (f : Drawing Unit → α) (s s' : List CodePair) : Bool :=
  match (load noImages (Rec.dflt _) [] (toStream s)).1,
    (load noImages (Rec.dflt _) [] (toStream s')).1 with
  | .ok d, .ok d' => decide (f d ≠ f d')
  | _, _ => false

private theorem differ_of {α : Type} [DecidableEq α] (f : Drawing Unit → α)
    {s s' : List CodePair} (h : differ f s s' = true) : Differ s s' := by
  unfold differ at h
  split at h
  · rename_i d d' h1 h2
    refine ⟨d, d', h1, h2, fun e => ?_⟩
    rw [e] at h
    simp at h
  · cases h

private def entityPairs (d : Drawing Unit) : List CodePair :=
  d.entities.flatMap (Entity.pairs .r2018 false)

private def objectPairs (d : Drawing Unit) : List (Except DxfErr (List CodePair)) :=
  d.objects.map (Object.pairs .r2018)

private def two : F64 := ⟨0x4000000000000000#64⟩

private instance (c : Int) : Decidable (FieldCode c) := by unfold FieldCode; infer_instance

/-- For the excepted kinds and codes both values count:

* a spline has many knots,
* the y of a vertex of a light-weight polyline belongs to the vertex begun last,
* the marker of a subclass decides what becomes of the codes behind it,
* a dictionary has many names,
* a line type has many dashes,
* and of a point of the header only those coordinates are replaced that are given again. -/
theorem C70_needed :
    BothCount (entityFile str!"SPLINE") ∧ BothCount (entityFile str!"LWPOLYLINE") ∧
    BothCount (entityFile str!"DIMENSION") ∧ BothCount (objectFile str!"DICTIONARY") ∧
    BothCount (tableFile str!"LTYPE") ∧
    Differ (headerFile [base [.newF64 10 two, .newF64 20 two], base [.newF64 10 .unit]])
      (headerFile [base [.newF64 10 .unit]]) := by
  refine ⟨?_, ?_, ?_, ?_, ?_, ?_⟩
  · exact ⟨[], .newF64 40 .unit, [], .newF64 40 two, rfl, by decide,
      differ_of entityPairs (by decide +kernel)⟩
  · exact ⟨[.newF64 10 .unit], .newF64 20 .unit, [.newF64 10 two], .newF64 20 two, rfl, by decide,
      differ_of entityPairs (by decide +kernel)⟩
  · exact ⟨[], .newStr 100 str!"AcDbAlignedDimension", [.newStr 1 str!"text"],
      .newStr 100 str!"AcDbAlignedDimension", rfl, by decide,
      differ_of entityPairs (by decide +kernel)⟩
  · exact ⟨[], .newStr 3 str!"a", [.newStr 350 str!"1"], .newStr 3 str!"b", rfl, by decide,
      differ_of objectPairs (by decide +kernel)⟩
  · exact ⟨[], .newF64 49 .unit, [], .newF64 49 two, rfl, by decide,
      differ_of (fun d => (d.tables .lineType).map (TName.lineType.kind.itemPairs .r2018 false))
        (by decide +kernel)⟩
  · exact differ_of (fun d => Point.y (d.header 5)) (by decide +kernel)

/-! ### The hypotheses can be met -/

section Examples

variable {d0 : Drawing Img} (hn : new h0 order = .ok d0)
include hn

private theorem inside (name : Str) (b : List CodePair) :
    ∃ d, InSection codec h0 order name [z0 str!"SECTION", .newStr 2 name] b d :=
  ⟨d0.clear, .mk [] (z0 str!"SECTION") (.newStr 2 name) b d0.clear ⟨rfl, rfl⟩ ⟨rfl, rfl⟩ fun d1 h1 => by
    cases hn.symm.trans h1; exact .here⟩

/-- The layer of a line is given twice. -/
example : (load codec h0 order (toStream ([z0 str!"SECTION", .newStr 2 str!"ENTITIES"] ++ ([] ++
      z0 str!"LINE" :: ([.newStr 5 str!"1"] ++ (.newStr 8 str!"a" :: ([.newF64 10 two] ++
        [.newStr 8 str!"b"]) ++ [z0 str!"ENDSEC", z0 str!"EOF"])))))).1 =
    (load codec h0 order (toStream ([z0 str!"SECTION", .newStr 2 str!"ENTITIES"] ++ ([] ++
      z0 str!"LINE" :: ([.newStr 5 str!"1"] ++ ([.newF64 10 two] ++
        [.newStr 8 str!"b"] ++ [z0 str!"ENDSEC", z0 str!"EOF"])))))).1 := by
  obtain ⟨d, h⟩ := inside (codec := codec) hn str!"ENTITIES" ([] ++ z0 str!"LINE" ::
    ([.newStr 5 str!"1"] ++ ([.newF64 10 two] ++ [.newStr 8 str!"b"] ++
      [z0 str!"ENDSEC", z0 str!"EOF"])))
  refine C70_entity (k := .line) (x := str!"LINE") (.drawing _ _ d h) .here ⟨rfl, rfl⟩
    (by decide +kernel) (.next rfl .here) (.next rfl (.next rfl (.next rfl .here)))
    (by decide) (by decide) rfl (by decide) ?_
  unfold load
  rw [hn]
  exact fun h => nomatch h

/-- The current layer is given twice. -/
example : (load codec h0 order (toStream ([z0 str!"SECTION", .newStr 2 str!"HEADER"] ++ ([] ++
      ((Variable.mk (.newStr 9 str!"$CLAYER") str!"$CLAYER" [.newStr 8 str!"a"] ::
        ([Variable.mk (.newStr 9 str!"$MENU") str!"$MENU" [.newStr 1 str!"x"]] ++
          [Variable.mk (.newStr 9 str!"$CLAYER") str!"$CLAYER" [.newStr 8 str!"b"]])).flatMap Variable.pairs ++
        z0 str!"ENDSEC" :: [z0 str!"EOF"]))))).1 =
    (load codec h0 order (toStream ([z0 str!"SECTION", .newStr 2 str!"HEADER"] ++ ([] ++
      (([Variable.mk (.newStr 9 str!"$MENU") str!"$MENU" [.newStr 1 str!"x"]] ++
          [Variable.mk (.newStr 9 str!"$CLAYER") str!"$CLAYER" [.newStr 8 str!"b"]]).flatMap Variable.pairs ++
        z0 str!"ENDSEC" :: [z0 str!"EOF"]))))).1 := by
  obtain ⟨d, h⟩ := inside (codec := codec) hn str!"HEADER" ([] ++
    (([Variable.mk (.newStr 9 str!"$MENU") str!"$MENU" [.newStr 1 str!"x"]] ++
      [Variable.mk (.newStr 9 str!"$CLAYER") str!"$CLAYER" [.newStr 8 str!"b"]]).flatMap Variable.pairs ++
        z0 str!"ENDSEC" :: [z0 str!"EOF"]))
  refine C70_header (.inl rfl) h .here (.next rfl (.next rfl (.next rfl .here))) ?_ rfl ?_ ?_ ?_
  · intro v hv
    simp only [List.cons_append, List.nil_append, List.mem_cons, List.not_mem_nil, or_false] at hv
    rcases hv with rfl | rfl | rfl <;> exact ⟨rfl, rfl, by decide⟩
  · intro v hv
    cases List.mem_singleton.mp hv
    decide
  · intro p hp
    cases List.mem_singleton.mp hp
    exact ⟨_, List.mem_singleton.mpr rfl, rfl⟩
  · unfold load
    rw [hn]
    exact fun h => nomatch h

end Examples

/-- The colour of a layer is given twice. -/
example : ∃ e1 e2 : TableItem TName.layer.kind,
    Steps (oneField TName.layer.kind.arms) (Entry.dflt TName.layer.kind.decls)
      (toStream ([.newStr 5 str!"1"] ++ ([.newStr 2 str!"a"] ++ [.newI16 62 1#16] ++
        [z0 str!"ENDTAB"]))) e1
      (toStream ([.newStr 2 str!"a"] ++ [.newI16 62 1#16] ++ [z0 str!"ENDTAB"])) ∧
    Steps (oneField TName.layer.kind.arms) e1
      (toStream (.newI16 62 (-1#16) :: ([.newStr 2 str!"a"] ++ [.newI16 62 1#16]) ++
        [z0 str!"ENDTAB"])) e2 (toStream [z0 str!"ENDTAB"]) :=
  ⟨_, _, .next rfl .here, .next rfl (.next rfl (.next rfl .here))⟩

/-- The same for objects, blocks and classes. -/
example : ∃ st1 st2, Steps (oneObjectPair .placeHolder) (OMode.start, Entry.dflt _, {})
      (toStream ([.newStr 5 str!"1"] ++ ([] ++ [.newStr 330 str!"2"] ++ [z0 str!"ENDSEC"])))
      st1 (toStream ([] ++ [.newStr 330 str!"2"] ++ [z0 str!"ENDSEC"])) ∧
    Steps (oneObjectPair .placeHolder) st1
      (toStream (.newStr 330 str!"1" :: ([] ++ [.newStr 330 str!"2"]) ++ [z0 str!"ENDSEC"])) st2
      (toStream [z0 str!"ENDSEC"]) := ⟨_, _, .next rfl .here, .next rfl (.next rfl .here)⟩

example : ∃ e1 e2, Steps (oneField Blocks.arms) Block.dflt.entry
      (toStream ([.newStr 5 str!"1"] ++ ([] ++ [.newStr 8 str!"2"] ++ [z0 str!"ENDBLK"])))
      e1 (toStream ([] ++ [.newStr 8 str!"2"] ++ [z0 str!"ENDBLK"])) ∧
    Steps (oneField Blocks.arms) e1
      (toStream (.newStr 8 str!"1" :: ([] ++ [.newStr 8 str!"2"]) ++ [z0 str!"ENDBLK"])) e2
      (toStream [z0 str!"ENDBLK"]) := ⟨_, _, .next rfl .here, .next rfl (.next rfl .here)⟩

example : ∃ c1 c2, Steps (oneClassPair .r2000) Class.dflt
      (toStream ([.newStr 1 str!"1"] ++ ([] ++ [.newStr 2 str!"2"] ++ [z0 str!"ENDSEC"])))
      c1 (toStream ([] ++ [.newStr 2 str!"2"] ++ [z0 str!"ENDSEC"])) ∧
    Steps (oneClassPair .r2000) c1
      (toStream (.newStr 2 str!"1" :: ([] ++ [.newStr 2 str!"2"]) ++ [z0 str!"ENDSEC"])) c2
      (toStream [z0 str!"ENDSEC"]) := ⟨_, _, .next rfl .here, .next rfl (.next rfl .here)⟩

end Dxf
