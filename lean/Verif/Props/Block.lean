import Verif.Lemmas.Block

/-! C24: blocks survive saving. -/

namespace Dxf

/-- C24: reading what was written for a block, after the `0/BLOCK` pair that selects the reader,
gives the block back, with the entities whose kinds the version supports in order; what that means
for the fields is said in `C24_fields`.  The pairs after the end mark are skipped.

The full claim is false of the code: entities are subject to the same exceptions as in C26, and the
extended data of the block is always lost (`C24_xdata_lost`).  The pairs in extension groups must be
ordinary ones (C25) and, as they are repeated after the end mark, not have code 0. -/
theorem C24_partial (b : Block) (v : Version) (writeHandles : Bool)
    (hp : ∀ e ∈ b.entities, e.toFlat.Proper) (ho : ∀ e ∈ b.entities, ¬ e.toFlat.OldRotated v)
    (hext : ∀ e ∈ b.entities, ExtGroup.AllPlain e.entry.ext)
    (hw : ∀ e ∈ b.entities, e.Whole v) (hpl : ExtGroup.AllPlain b.entry.ext)
    (hz : .r14 ≤ v → ∀ g ∈ b.entry.ext, ExtItem.NoZeroList g.items) (q : CodePair)
    (hq : q.code = 0) (rest : Stream) :
    ∃ b' tail, b.Restored v writeHandles b' ∧
      b.pairs v writeHandles = .newStr 0 str!"BLOCK" :: tail ∧
      Block.read (toStream (tail ++ [q]) ++ rest) = (.ok b', toStream [q] ++ rest) := by
  obtain ⟨b', tail, h1, h2, h3⟩ := b.read_written v writeHandles hp ho hext hw hpl hz
    (toStream [q] ++ rest) ⟨q, rest, rfl, hq⟩
  refine ⟨b', tail, h1, h2, ?_⟩
  rw [toStream_append, List.append_assoc, h3]

/-- Satisfiable: a block with an extension group and two entities, in R2018. -/
example : ∃ b : Block, b.entities.length = 2 ∧ b.entry.ext.length = 1 ∧
    (∀ e ∈ b.entities, e.toFlat.Proper) ∧ (∀ e ∈ b.entities, ¬ e.toFlat.OldRotated .r2018) ∧
    (∀ e ∈ b.entities, ExtGroup.AllPlain e.entry.ext) ∧ (∀ e ∈ b.entities, e.Whole .r2018) ∧
    ExtGroup.AllPlain b.entry.ext ∧ (∀ g ∈ b.entry.ext, ExtItem.NoZeroList g.items) :=
  ⟨⟨⟨Rec.dflt _, [⟨str!"A", [.pair (.newI16 70 3#16)]⟩], []⟩,
    [⟨⟨.circle, 0, Entry.dflt _⟩, Extra.dflt⟩, ⟨⟨.line, 0, Entry.dflt _⟩, Extra.dflt⟩]⟩, rfl, rfl,
    by simp [Flat.Proper], by simp [Flat.OldRotated], by simp [ExtGroup.AllPlain, Entry.dflt],
    by simp [Entity.Whole], by simp [ExtGroup.AllPlain, ExtItem.PlainList, ExtItem.Plain,
      CodePair.newI16], by simp [ExtItem.NoZeroList, ExtItem.NoZero, CodePair.newI16]⟩

/-- What a restored block has in common with the original, in every version: name, layer, base
point, x-ref path, description, space, and flags if they are in the range of `i16`; from R14 on
also the extension groups (but for empty ones); and the entities are of the same kinds in the same
order. -/
theorem C24_fields (b b' : Block) (v : Version) (writeHandles : Bool)
    (h : b.Restored v writeHandles b') :
    b'.name = b.name ∧ b'.layer = b.layer ∧ b'.basePoint = b.basePoint ∧
    b'.xrefPathName = b.xrefPathName ∧ b'.description = b.description ∧
    b'.isInPaperspace = b.isInPaperspace ∧
    (-32768 ≤ b.flags.toInt → b.flags.toInt < 32768 → b'.flags = b.flags) ∧
    b'.entry.ext = (if .r14 ≤ v then ExtGroup.kept b.entry.ext else []) ∧
    b'.entities.map (·.kind) =
      (b.entities.filter fun e => e.kind.supported v).map (·.kind) := by
  obtain ⟨⟨hf, hx, _⟩, he⟩ := h
  have hrep : ∀ i, i ∈ [2, 3, 5, 6, 7, 8] →
      Representable (Blocks.kind.all writeHandles) v b.entry.fields i := by
    intro i hi g hg _ w hw
    have hc : ∀ g ∈ Blocks.kind.all writeHandles, ∀ w, g.cmd = .field i w →
        w.Fits (Rec.dflt Blocks.decls i) (b.entry.fields i) := by
      simp only [List.mem_cons, List.not_mem_nil, or_false] at hi
      rcases hi with rfl | rfl | rfl | rfl | rfl | rfl
      all_goals
        unfold TableKind.all
        refine List.forall_mem_append.mpr ⟨?_, ?_⟩
        all_goals
          repeat' first
            | exact fun g hg => absurd hg List.not_mem_nil
            | (refine List.forall_mem_cons.mpr ⟨fun w hw => ?_, ?_⟩
               · cases hw <;> first | trivial | (intro a ha; cases a <;> simp at ha))
    exact hc g hg w hw
  have hwr : ∀ i, (∃ g ∈ Blocks.kind.all writeHandles, g.writes i ∧ g.holds v b.entry.fields) →
      Written (Blocks.kind.all writeHandles) v b.entry.fields i := fun i h => h
  have hmem : ∀ g ∈ Blocks.cmds, g ∈ Blocks.kind.all writeHandles := fun g hg =>
    List.mem_append_right _ hg
  refine ⟨?_, ?_, ?_, ?_, ?_, ?_, ?_, hx, ?_⟩
  · refine (hf 3 (by simp) (hrep 3 (by simp))).trans (if_pos (hwr 3
      ⟨_, hmem _ (List.mem_of_getElem (i := 5) (h := by decide) rfl), rfl, rfl⟩))
  · refine (hf 2 (by simp) (hrep 2 (by simp))).trans (if_pos (hwr 2
      ⟨_, hmem _ (List.mem_of_getElem (i := 3) (h := by decide) rfl), rfl, rfl⟩))
  · refine (hf 5 (by simp) (hrep 5 (by simp))).trans (if_pos (hwr 5
      ⟨_, hmem _ (List.mem_of_getElem (i := 7) (h := by decide) rfl), rfl, rfl⟩))
  · refine (hf 6 (by simp) (hrep 6 (by simp))).trans (if_pos (hwr 6
      ⟨_, hmem _ (List.mem_of_getElem (i := 9) (h := by decide) rfl), rfl, rfl⟩))
  · refine (hf 7 (by simp) (hrep 7 (by simp))).trans ?_
    by_cases hd : b.description = []
    · refine ite_eq_left_iff.mpr fun _ => ?_
      exact hd.symm
    · refine if_pos (hwr 7 ⟨_, hmem _ (List.mem_of_getElem (i := 10) (h := by decide) rfl), rfl, ?_⟩)
      change (true && !(decide (b.description = ([] : Str)))) = true
      simp [hd]
  · refine (hf 8 (by simp) (hrep 8 (by simp))).trans ?_
    by_cases hd : b.isInPaperspace = false
    · refine ite_eq_left_iff.mpr fun _ => ?_
      exact hd.symm
    · refine if_pos (hwr 8 ⟨_, hmem _ (List.mem_of_getElem (i := 2) (h := by decide) rfl), rfl, ?_⟩)
      change (true && b.isInPaperspace) = true
      simpa using hd
  · intro h1 h2
    refine (hf 4 (by simp) ?_).trans (if_pos (hwr 4
      ⟨_, hmem _ (List.mem_of_getElem (i := 6) (h := by decide) rfl), rfl, rfl⟩))
    · intro g hg _ w hw
      have hc : ∀ g ∈ Blocks.kind.all writeHandles, ∀ w, g.cmd = .field 4 w →
          w.Fits (Rec.dflt Blocks.decls 4) (b.entry.fields 4) := by
        unfold TableKind.all
        refine List.forall_mem_append.mpr ⟨?_, ?_⟩
        all_goals
          repeat' first
            | exact fun g hg => absurd hg List.not_mem_nil
            | (refine List.forall_mem_cons.mpr ⟨fun w hw => ?_, ?_⟩
               · cases hw <;> exact ⟨h1, h2⟩)
      exact hc g hg w hw
  · clear hf hx hrep hwr hmem
    generalize b.entities.filter _ = es at he ⊢
    generalize b'.entities = es' at he ⊢
    induction he with
    | nil => rfl
    | cons h _ ih =>
      obtain ⟨_, _, _, _, rfl⟩ := h
      rw [List.map_cons, List.map_cons, ih]

/-! ### What is lost -/

/-- C24 fails: the extended data of a block is written after the end mark, where it is skipped. -/
theorem C24_xdata_lost (b b' : Block) (v : Version) (writeHandles : Bool)
    (h : b.Restored v writeHandles b') : b'.entry.xdata = [] := by
  have := h.1.2.2
  simpa using this

/-- The flags are an `i32` written as an `i16`: 65536 comes back as 0. -/
theorem C24_flags_truncated :
    ((Block.read (toStream ((Block.pairs .r2018 true
      ⟨⟨Rec.set (ds := Blocks.decls) (Rec.dflt _) 4 (65536#32 : I32), [], []⟩, []⟩).drop 1 ++
        [.newStr 0 str!"ENDSEC"]))).1.map fun b => b.flags) = .ok 0#32 := by
  decide +kernel

/-! ### A block without an end -/

/-- C45 fails: when a section ends inside a block, the reader of the block never stops.  No bound
on the number of rounds is enough: after every one of them it faces the same pairs again. -/
theorem C45_block_diverges (fuel : Nat) (b : Block) (rest : Stream) :
    Block.readFrom fuel b (toStream [.newStr 0 str!"ENDSEC"] ++ rest) =
      (.error .outOfFuel, toStream [.newStr 0 str!"ENDSEC"] ++ rest) := by
  induction fuel generalizing b with
  | zero => rfl
  | succ fuel ih =>
    rw [Block.readFrom, Rd.bind_ok (a := b.entry)
      (s' := toStream [.newStr 0 str!"ENDSEC"] ++ rest) (by rfl)]
    rw [toStream_cons, List.cons_append, Rd.bind_ok (Rd.next_cons (by simp [CodePair.newStr]) _)]
    change (if CodePairValue.str str!"ENDSEC" = CodePairValue.str str!"ENDBLK" then _ else
      (Rd.putBack (.newStr 0 str!"ENDSEC") >>= fun _ => readEntities >>= fun es =>
        Block.readFrom fuel ⟨b.entry, b.entities ++ es⟩)) _ = _
    rw [if_neg (by decide), Rd.bind_ok (Rd.run_putBack _ _)]
    obtain ⟨n, _, hre⟩ := readEntities_eq (.nil (nextEntity_end (s := rest) (t := str!"ENDSEC")
      (.inl rfl)))
    exact (Rd.bind_ok hre).trans (ih _)

end Dxf
