import Verif.Lemmas.Brackets
import Verif.Lemmas.Thumbnail

/-! C35: saved files are well bracketed.

Saving cannot change the drawing: `codePairs` models a function of a shared reference. -/

namespace Dxf

open Drawing

variable {Img : Type} {codec : ImageCodec Img}

/-- One optional section. -/
private def opt (c : Prop) [Decidable c] (name : Str) (body : List CodePair) :
    List (Str × List CodePair) := if c then [] else [(name, body)]

private def render (ss : List (Str × List CodePair)) : List CodePair :=
  ss.flatMap fun s => [.newStr 0 str!"SECTION", .newStr 2 s.1] ++ s.2 ++ [.newStr 0 str!"ENDSEC"]

private theorem render_append (a b : List (Str × List CodePair)) :
    render (a ++ b) = render a ++ render b := List.flatMap_append

private theorem render_one (n : Str) (b : List CodePair) : render [(n, b)] = inSection n b := by
  simp [render, inSection]

/-- What is written for the tables. -/
theorem tablesBody (d : Drawing Img) (h : ∀ t, ∀ x ∈ d.tables t, ∀ g ∈ x.ext, AllQuiet g.pairs) :
    TablesBody (TName.all.flatMap d.oneTable) := by
  suffices H : ∀ ts : List TName, TablesBody (ts.flatMap d.oneTable) from H _
  intro ts
  induction ts with
  | nil => exact ⟨[], rfl, fun _ h => nomatch h⟩
  | cons t ts ih =>
    obtain ⟨rest, e, hr⟩ := ih
    rw [List.flatMap_cons, e]
    have hone : d.oneTable t = [] ∨ d.oneTable t = [.newStr 0 str!"TABLE",
        .newStr 2 t.kind.typeString] ++ ([.newStr 100 str!"AcDbSymbolTable", .newI16 70 0#16] ++
          (d.tables t).flatMap (t.kind.itemPairs d.version d.writeHandles)) ++
          [.newStr 0 str!"ENDTAB"] := by
      have hk : d.oneTable t = [] ∨
          d.oneTable t = t.kind.pairs d.version d.writeHandles (d.tables t) := by
        unfold oneTable
        by_cases hc : (match t.kind.min with
            | some m => decide (m ≤ d.version)
            | none => true) = true
        · exact .inr (if_pos hc)
        · exact .inl (if_neg hc)
      rcases hk with hk | hk
      · exact .inl hk
      · rw [hk]
        unfold TableKind.pairs
        split
        · exact .inl rfl
        · exact .inr (by simp)
    rcases hone with h0 | h1
    · exact ⟨rest, by rw [h0]; rfl, hr⟩
    · refine ⟨(t.kind.typeString, _) :: rest, by rw [h1, List.flatMap_cons], ?_⟩
      refine List.forall_mem_cons.mpr ⟨?_, hr⟩
      exact .append (.cons (quiet_of_ne (by decide)) (.cons (quiet_of_ne (by decide)) .nil))
        (.flatMap fun x hx => tableItem_quiet t _ _ x (h t x hx))

/-- What is written for the blocks. -/
theorem blocksBody (v : Version) (wh : Bool) (bs : List Block)
    (h : ∀ b ∈ bs, (∀ g ∈ b.entry.ext, AllQuiet g.pairs) ∧
      ∀ e ∈ b.entities, ∀ g ∈ e.entry.ext, AllQuiet g.pairs) :
    BlocksBody (bs.flatMap (Block.pairs v wh)) := by
  induction bs with
  | nil => exact ⟨[], rfl, fun _ h => nomatch h⟩
  | cons b bs ih =>
    obtain ⟨rest, e, hr⟩ := ih fun c hc => h c (List.mem_cons_of_mem _ hc)
    obtain ⟨h1, h2⟩ := h b List.mem_cons_self
    refine ⟨(emitAll (Blocks.head wh) v b.entry.fields ++
      (if .r14 ≤ v then b.entry.ext.flatMap ExtGroup.pairs else []) ++
      emitAll Blocks.cmds v b.entry.fields ++ b.entities.flatMap (Entity.pairs v wh),
      Block.endTail v wh b.entry) :: rest, ?_, ?_⟩
    · rw [List.flatMap_cons, e, List.flatMap_cons]
      congr 1
      unfold Block.pairs TableKind.itemPairs
      rw [Block.endPairs_eq]
      simp [Blocks.kind]
    · refine List.forall_mem_cons.mpr ⟨⟨?_, ?_⟩, hr⟩
      · exact .append (.append (.append (emitAll_quiet _ v _ (by cases wh <;> decide +kernel))
          (ext_quiet v h1)) (emitAll_quiet _ v _ (by decide +kernel)))
          (.flatMap fun x hx => wholeEntity_quiet v wh x (h2 x hx))
      · exact .append (.append (.append (emitAll_quiet _ v _ (by cases wh <;> decide +kernel))
          (ext_quiet v h1)) (emitAll_quiet _ v _ (by decide +kernel))) (xdata_quiet _ _)

/-- What is saved is a well bracketed file with the sections in their order and one mark at the end,
unless data of other applications or, before R14, names of classes look like brackets. -/
theorem C35_partial {d : Drawing Img} {ps : List CodePair} (h : d.codePairs codec = .ok ps)
    (hd : d.Tame) : Bracketed d.sectionNames ps := by
  unfold codePairs at h
  cases ho : d.objectPairs with
  | error e => rw [ho] at h; cases h
  | ok objects =>
  cases ht : d.thumbnailPairs codec with
  | error e => rw [ho, ht] at h; cases h
  | ok thumbnail =>
  rw [ho, ht] at h
  cases h
  -- the objects
  obtain ⟨os, hos, hoq, hon⟩ : ∃ os, objects = render os ∧
      (∀ s ∈ os, SectionBody s.1 s.2) ∧
      os.map Prod.fst = if .r13 ≤ d.version then [str!"OBJECTS"] else [] := by
    unfold objectPairs at ho
    split at ho
    · cases hm : d.objects.mapM (Object.pairs d.version) with
      | error e => rw [hm] at ho; cases ho
      | ok pss =>
        rw [hm] at ho
        cases ho
        refine ⟨[(str!"OBJECTS", pss.flatten)], (render_one _ _).symm, ?_, by rw [if_pos ‹_›]; rfl⟩
        refine List.forall_mem_cons.mpr ⟨?_, fun _ h => nomatch h⟩
        change AllQuiet _
        intro p hp
        obtain ⟨l, hl, hp⟩ := List.mem_flatten.mp hp
        obtain ⟨o, hom, hl⟩ := mapM_ok hm l hl
        exact object_quiet hl (hd.objects o hom).1 (hd.objects o hom).2 p hp
    · cases ho
      exact ⟨[], rfl, (fun _ h => nomatch h), by rw [if_neg ‹_›]; rfl⟩
  -- the thumbnail
  obtain ⟨ts, hts, htq, htn⟩ : ∃ ts, thumbnail = render ts ∧
      (∀ s ∈ ts, SectionBody s.1 s.2) ∧
      ts.map Prod.fst = if .r2000 ≤ d.version ∧ d.thumbnail.isSome then [str!"THUMBNAILIMAGE"]
        else [] := by
    unfold thumbnailPairs at ht
    split at ht
    · cases hi : d.thumbnail with
      | none =>
        rw [hi] at ht
        cases ht
        exact ⟨[], rfl, (fun _ h => nomatch h), by simp⟩
      | some img =>
        rw [hi] at ht
        change Thumbnail.pairs codec img = _ at ht
        unfold Thumbnail.pairs at ht
        cases hb : codec.toBmp img with
        | error e => rw [hb] at ht; cases ht
        | ok data =>
          rw [hb] at ht
          change (if data.length < 14 then _ else _) = _ at ht
          split at ht
          · cases ht
          · cases ht
            refine ⟨[(str!"THUMBNAILIMAGE", .newI32 90 (BitVec.ofNat 32 (data.length - 14)) ::
              (Thumbnail.chunks data.length (data.drop 14)).map (CodePair.newBinary 310))],
              by rw [render_one]; simp [inSection], ?_, by simp [*]⟩
            refine List.forall_mem_cons.mpr ⟨?_, fun _ h => nomatch h⟩
            change AllQuiet _
            exact .cons (quiet_of_ne (by simp [CodePair.newI32]))
              (.map fun _ _ => quiet_of_ne (by simp [CodePair.newBinary]))
    · cases ht
      refine ⟨[], rfl, (fun _ h => nomatch h), ?_⟩
      rw [if_neg (by simp_all)]
      rfl
  refine ⟨[(str!"HEADER", d.header.body)] ++
    opt (d.classes = []) str!"CLASSES" (d.classes.flatMap (Class.pairs d.version)) ++
    [(str!"TABLES", TName.all.flatMap d.oneTable)] ++
    opt (d.blocks.length = 0) str!"BLOCKS"
      (d.blocks.flatMap (Block.pairs d.version d.writeHandles)) ++
    [(str!"ENTITIES", d.entities.flatMap (Entity.pairs d.version d.writeHandles))] ++ os ++ ts,
    ?_, ?_, ?_⟩
  · change _ = render _ ++ _
    have hc : d.classPairs = render (opt (d.classes = []) str!"CLASSES"
        (d.classes.flatMap (Class.pairs d.version))) := by
      unfold classPairs opt
      cases d.classes with
      | nil => rfl
      | cons c cs => exact (render_one _ _).symm
    have hb : d.blockPairs = render (opt (d.blocks.length = 0) str!"BLOCKS"
        (d.blocks.flatMap (Block.pairs d.version d.writeHandles))) := by
      unfold blockPairs opt
      cases d.blocks with
      | nil => rfl
      | cons c cs => exact (render_one _ _).symm
    simp only [render_append, render_one]
    rw [hc, hb, hos, hts]
    rfl
  · simp only [List.map_append, hon, htn]
    unfold sectionNames opt
    by_cases h1 : d.classes = [] <;> by_cases h2 : d.blocks.length = 0 <;> simp [h1, h2]
  · have one (n : Str) (b : List CodePair) (h : SectionBody n b) :
        ∀ s ∈ [(n, b)], SectionBody s.1 s.2 :=
      List.forall_mem_cons.mpr ⟨h, fun _ h => nomatch h⟩
    have some' (c : Prop) [Decidable c] (n : Str) (b : List CodePair) (h : SectionBody n b) :
        ∀ s ∈ opt c n b, SectionBody s.1 s.2 := by
      unfold opt
      split
      · exact fun _ h => nomatch h
      · exact one n b h
    refine List.forall_mem_append.mpr ⟨List.forall_mem_append.mpr ⟨List.forall_mem_append.mpr
      ⟨List.forall_mem_append.mpr ⟨List.forall_mem_append.mpr ⟨List.forall_mem_append.mpr
        ⟨one _ _ ?_, some' _ _ _ ?_⟩, one _ _ ?_⟩, some' _ _ _ ?_⟩, one _ _ ?_⟩, hoq⟩, htq⟩
    · exact header_quiet d.header
    · exact AllQuiet.flatMap fun c hc => class_quiet _ c fun hv => hd.classes hv c hc
    · exact tablesBody d hd.tables
    · exact blocksBody _ _ _ hd.blocks
    · exact AllQuiet.flatMap fun e he => wholeEntity_quiet _ _ e (hd.entities e he)

/-- The mark at the end of a file. -/
def IsEnd (p : CodePair) : Prop := p.code = 0 ∧ p.value = .str str!"EOF"

theorem AllQuiet.noEnd {ps : List CodePair} (h : AllQuiet ps) : ∀ p ∈ ps, ¬ IsEnd p := by
  intro p hp he
  obtain ⟨s, hs, hn⟩ := h p hp he.1
  rw [he.2] at hs
  cases hs
  exact hn (by decide)

/-- A well bracketed file has the mark at its end and nowhere else. -/
theorem C35_one_end {names : List Str} {ps : List CodePair} (h : Bracketed names ps) :
    ∃ front, ps = front ++ [.newStr 0 str!"EOF"] ∧ ∀ p ∈ front, ¬ IsEnd p := by
  obtain ⟨ss, e, -, hs⟩ := h
  refine ⟨_, e, ?_⟩
  intro p hp
  obtain ⟨⟨n, b⟩, hm, hp⟩ := List.mem_flatMap.mp hp
  have hb : ∀ p ∈ b, ¬ IsEnd p := by
    have := hs _ hm
    unfold SectionBody at this
    dsimp only at this
    split at this
    · obtain ⟨ts, rfl, hq⟩ := this
      intro p hp
      obtain ⟨t, ht, hp⟩ := List.mem_flatMap.mp hp
      simp only [List.cons_append, List.nil_append, List.mem_cons, List.mem_append,
        List.not_mem_nil, or_false] at hp
      rcases hp with rfl | rfl | hp | rfl
      · exact fun h => nomatch h.2
      · exact fun h => nomatch h.1
      · exact (hq t ht).noEnd p hp
      · exact fun h => nomatch h.2
    · split at this
      · obtain ⟨bs, rfl, hq⟩ := this
        intro p hp
        obtain ⟨t, ht, hp⟩ := List.mem_flatMap.mp hp
        simp only [List.cons_append, List.mem_cons, List.mem_append] at hp
        rcases hp with rfl | hp | rfl | hp
        · exact fun h => nomatch h.2
        · exact (hq t ht).1.noEnd p hp
        · exact fun h => nomatch h.2
        · exact (hq t ht).2.noEnd p hp
      · exact this.noEnd
  simp only [List.cons_append, List.nil_append, List.mem_cons, List.mem_append,
    List.not_mem_nil, or_false] at hp
  rcases hp with rfl | rfl | hp | rfl
  · exact fun h => nomatch h.2
  · exact fun h => nomatch h.1
  · exact hb p hp
  · exact fun h => nomatch h.2

/-- Without the restriction the claim is false: an extension group of an entity may contain a mark,
and then the file is not well bracketed. -/
theorem C35_violated {d : Drawing Img} {ps : List CodePair} (h : d.codePairs codec = .ok ps)
    (hv : .r14 ≤ d.version) {e : Entity} (he : e ∈ d.entities)
    (hk : e.kind.supported d.version = true) {g : ExtGroup} (hg : g ∈ e.entry.ext)
    (hm : .newStr 0 str!"EOF" ∈ g.pairs) : ∀ names, ¬ Bracketed names ps := by
  intro names hb
  obtain ⟨front, e1, hf⟩ := C35_one_end hb
  unfold codePairs at h
  cases ho : d.objectPairs with
  | error e => rw [ho] at h; cases h
  | ok objects =>
  cases ht : d.thumbnailPairs codec with
  | error e => rw [ho, ht] at h; cases h
  | ok thumbnail =>
  rw [ho, ht] at h
  have h' := Except.ok.inj h
  rw [e1] at h'
  have := List.append_inj_left' h' rfl
  have hin : .newStr 0 str!"EOF" ∈ d.entityPairs := by
    unfold entityPairs inSection
    refine List.mem_append_left _ (List.mem_cons_of_mem _ (List.mem_cons_of_mem _ ?_))
    refine List.mem_flatMap.mpr ⟨e, he, ?_⟩
    unfold Entity.pairs EName.pairs
    rw [if_pos hk]
    unfold EName.front
    rw [if_pos hv]
    refine List.mem_append_left _ (List.mem_append_left _ (List.mem_append_left _
      (List.mem_append_right _ (List.mem_flatMap.mpr ⟨g, hg, hm⟩))))
  exact hf (.newStr 0 str!"EOF") (by rw [← this]; simp [hin]) ⟨rfl, rfl⟩

/-- A drawing of version R2000 with one line, to which an extension group is attached. -/
private def lineWith (item : CodePair) : Drawing Unit where
  header := (Rec.dflt Header.decls : Header).set 0 Version.r2000
  classes := [Class.dflt]
  tables := fun _ => []
  blocks := [⟨Entry.dflt _, []⟩]
  entities := [⟨⟨.line, 0, ⟨Rec.dflt _, [⟨str!"APP", [.pair item]⟩], []⟩⟩, Extra.dflt⟩]
  objects := []
  thumbnail := none

private theorem lineWith_ok (codec : ImageCodec Unit) (item : CodePair) :
    ∃ ps, (lineWith item).codePairs codec = .ok ps := ⟨_, rfl⟩

example : (lineWith (.newStr 1 str!"x")).Tame ∧ (lineWith (.newStr 1 str!"x")).sectionNames =
    [str!"HEADER", str!"CLASSES", str!"TABLES", str!"BLOCKS", str!"ENTITIES", str!"OBJECTS"] := by
  refine ⟨⟨by decide, fun t x hx => (by cases hx), ?_, ?_, fun o ho => (by cases ho)⟩, by decide⟩
  · intro b hb
    obtain rfl := List.mem_singleton.mp hb
    exact ⟨fun g hg => (by cases hg), fun e he => (by cases he)⟩
  · intro e he g hg
    obtain rfl := List.mem_singleton.mp he
    obtain rfl := List.mem_singleton.mp hg
    intro p hp
    apply quiet_of_ne
    change p ∈ [_, _, _] at hp
    simp only [List.mem_cons, List.not_mem_nil, or_false] at hp
    rcases hp with rfl | rfl | rfl <;> decide

example (codec : ImageCodec Unit) : ∃ ps, (lineWith (.newStr 0 str!"EOF")).codePairs codec = .ok ps ∧
    ∀ names, ¬ Bracketed names ps := by
  obtain ⟨ps, h⟩ := lineWith_ok codec (.newStr 0 str!"EOF")
  exact ⟨ps, h, C35_violated h (by decide) List.mem_cons_self rfl List.mem_cons_self
    (by decide)⟩

end Dxf
