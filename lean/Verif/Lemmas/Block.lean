import Verif.Lemmas.Class
import Verif.Lemmas.Collect
import Verif.Spec.Block

/-! Reading the pairs written for a block. -/

namespace Dxf

/-! ### Swallowing -/

theorem swallow_pairs (ps : List CodePair) (hc : ∀ p ∈ ps, p.code ≠ 0 ∧ p.code ≠ 999)
    (rest : Stream) (hr : StartsZero rest) : swallowItem (toStream ps ++ rest) = (.ok (), rest) := by
  obtain ⟨q, s, rfl, hq⟩ := hr
  unfold swallowItem
  rw [Rd.run_withFuel]
  have : Runs false (fun _ _ => (return () : Rd Unit)) () ps () (some (.ok q) :: s) := by
    clear hq
    induction ps with
    | nil => exact Runs.nil _ _
    | cons p ps ih =>
      obtain ⟨h0, h9⟩ := hc p List.mem_cons_self
      exact Runs.trans (a := [p]) (b := ps) (Runs.one h0 h9 rfl)
        (ih fun q hq => hc q (List.mem_cons_of_mem _ hq))
  exact Runs.done hq this _ (by simp)

/-- A pair that can be swallowed. -/
def Inert (p : CodePair) : Prop := p.code ≠ 0 ∧ p.code ≠ 999

mutual
theorem ExtItem.inert (i : ExtItem) (hp : i.Plain) (hz : i.NoZero) : ∀ p ∈ i.pairs, Inert p := by
  cases i with
  | pair p =>
    intro q hq
    simp only [ExtItem.pairs, List.mem_singleton] at hq
    subst hq
    exact ⟨hz, hp.2⟩
  | group name items =>
    cases items with
    | nil => intro q hq; simp [ExtItem.pairs] at hq
    | cons i is =>
      simp only [ExtItem.Plain, ExtItem.PlainList, ExtItem.NoZero, ExtItem.NoZeroList] at hp hz
      intro q hq
      simp only [ExtItem.pairs, List.cons_append, List.mem_cons, List.mem_append,
        List.not_mem_nil, or_false] at hq
      rcases hq with rfl | (h | h) | rfl
      · exact ⟨by simp [CodePair.newStr], by simp [CodePair.newStr]⟩
      · exact ExtItem.inert i hp.1 hz.1 q h
      · exact ExtItem.inertList is hp.2 hz.2 q h
      · exact ⟨by simp [CodePair.newStr], by simp [CodePair.newStr]⟩
theorem ExtItem.inertList (is : List ExtItem) (hp : ExtItem.PlainList is)
    (hz : ExtItem.NoZeroList is) : ∀ p ∈ ExtItem.pairsList is, Inert p := by
  cases is with
  | nil => intro q hq; simp [ExtItem.pairsList] at hq
  | cons i is =>
    simp only [ExtItem.PlainList, ExtItem.NoZeroList] at hp hz
    simp only [ExtItem.pairsList]
    exact List.forall_mem_append.mpr
      ⟨ExtItem.inert i hp.1 hz.1, ExtItem.inertList is hp.2 hz.2⟩
end

theorem ExtGroup.inert (g : ExtGroup) (hp : ExtItem.PlainList g.items)
    (hz : ExtItem.NoZeroList g.items) : ∀ p ∈ g.pairs, Inert p := by
  unfold ExtGroup.pairs
  split
  · intro p hp; cases hp
  · intro p h
    simp only [List.cons_append, List.mem_cons, List.mem_append, List.not_mem_nil, or_false] at h
    rcases h with rfl | h | rfl
    · exact ⟨by simp [CodePair.newStr], by simp [CodePair.newStr]⟩
    · exact ExtItem.inertList _ hp hz p h
    · exact ⟨by simp [CodePair.newStr], by simp [CodePair.newStr]⟩

mutual
theorem XDataItem.inert (i : XDataItem) : ∀ p ∈ i.pairs, Inert p := by
  cases i with
  | controlGroup items =>
    intro p h
    simp only [XDataItem.pairs, List.cons_append, List.mem_cons, List.mem_append,
      List.not_mem_nil, or_false] at h
    rcases h with rfl | h | rfl
    · exact ⟨by simp [CodePair.newStr], by simp [CodePair.newStr]⟩
    · exact XDataItem.inertList items p h
    · exact ⟨by simp [CodePair.newStr], by simp [CodePair.newStr]⟩
  | _ => simp [XDataItem.pairs, Inert, CodePair.newStr, CodePair.newF64, CodePair.newI16,
      CodePair.newI32]
theorem XDataItem.inertList (is : List XDataItem) : ∀ p ∈ XDataItem.pairsList is, Inert p := by
  cases is with
  | nil => intro q hq; simp [XDataItem.pairsList] at hq
  | cons i is =>
    simp only [XDataItem.pairsList]
    exact List.forall_mem_append.mpr ⟨XDataItem.inert i, XDataItem.inertList is⟩
end

theorem XData.inert (x : XData) (v : Version) : ∀ p ∈ x.pairs v, Inert p := by
  unfold XData.pairs
  split
  · exact List.forall_mem_cons.mpr ⟨⟨by simp [CodePair.newStr], by simp [CodePair.newStr]⟩,
      XDataItem.inertList _⟩
  · intro p hp; cases hp

theorem emitAll_inert {ds : List Decl} (cmds : List (GCmd ds)) (v : Version) (r : Rec ds)
    (h : (cmds.all fun g => g.cmd.codes.all plainCode) = true) :
    ∀ p ∈ emitAll cmds v r, Inert p := by
  intro p hp
  have := emitAll_plain cmds v r h p hp
  simp only [plainCode, ne_eq, Bool.and_eq_true, decide_eq_true_eq, decide_not,
    Bool.not_eq_true', decide_eq_false_iff_not] at this
  exact ⟨this.1.1.1, this.2⟩

namespace Block

/-- The pairs after `0/ENDBLK`. -/
def endTail (v : Version) (wh : Bool) (e : Entry Blocks.decls) : List CodePair :=
  emitAll (Blocks.endHead wh) v e.fields ++
  (if .r14 ≤ v then e.ext.flatMap ExtGroup.pairs else []) ++
  emitAll Blocks.endCmds v e.fields ++
  e.xdata.flatMap fun x => x.pairs v

theorem endPairs_eq (v : Version) (wh : Bool) (e : Entry Blocks.decls) :
    endPairs v wh e = .newStr 0 str!"ENDBLK" :: endTail v wh e := by
  simp [endPairs, endTail]

theorem endTail_inert (v : Version) (wh : Bool) (e : Entry Blocks.decls)
    (hp : ExtGroup.AllPlain e.ext)
    (hz : .r14 ≤ v → ∀ g ∈ e.ext, ExtItem.NoZeroList g.items) :
    ∀ p ∈ endTail v wh e, Inert p := by
  unfold endTail
  refine List.forall_mem_append.mpr ⟨List.forall_mem_append.mpr ⟨List.forall_mem_append.mpr
    ⟨?_, ?_⟩, ?_⟩, ?_⟩
  · exact emitAll_inert _ v _ (by cases wh <;> decide +kernel)
  · split
    · rename_i hv
      intro p h
      obtain ⟨g, hg, h⟩ := List.mem_flatMap.mp h
      exact g.inert (hp g hg) (hz hv g hg) p h
    · intro p h; cases h
  · exact emitAll_inert _ v _ (by decide +kernel)
  · intro p h
    obtain ⟨x, _, h⟩ := List.mem_flatMap.mp h
    exact x.inert v p h

theorem endblk_read (v : Version) (wh : Bool) (b : Block) (x : Entry Blocks.decls)
    (hp : ExtGroup.AllPlain x.ext)
    (hz : .r14 ≤ v → ∀ g ∈ x.ext, ExtItem.NoZeroList g.items) (rest : Stream)
    (hr : StartsZero rest) (fuel : Nat) :
    readFrom (fuel + 1) b (toStream (endPairs v wh x) ++ rest) = (.ok b, rest) := by
  rw [endPairs_eq, readFrom, toStream_cons, List.cons_append]
  rw [Rd.bind_ok (a := b.entry) (s' := some (.ok (.newStr 0 str!"ENDBLK")) ::
    (toStream (endTail v wh x) ++ rest)) (by rfl)]
  rw [Rd.bind_ok (Rd.next_cons (by simp [CodePair.newStr]) _)]
  change (if CodePairValue.str str!"ENDBLK" = CodePairValue.str str!"ENDBLK" then (swallowItem >>= fun _ =>
    (pure { b with entry := b.entry } : Rd Block)) else _) _ = _
  rw [if_pos rfl, Rd.bind_ok (swallow_pairs _ (endTail_inert v wh x hp hz) rest hr)]
  rfl

theorem kind_checks (wh : Bool) : Blocks.kind.checks wh [] = true := by
  cases wh <;> decide +kernel

theorem kind_frame : CustomFrame Blocks.kind.arms :=
  customFrame_of_on _ (by decide +kernel)

theorem kind_accepts (v : Version) (wh : Bool) (r : Rec Blocks.decls) :
    ∀ p ∈ emitAll (Blocks.head wh ++ Blocks.cmds) v r, Accepts Blocks.arms p := by
  apply emitAll_accepts
  cases wh <;> decide +kernel

/-- What entities are written as does not start like the end of a block. -/
theorem entities_head (v : Version) (wh : Bool) (es : List Entity) :
    es.flatMap (Entity.pairs v wh) = [] ∨ ∃ p ps, es.flatMap (Entity.pairs v wh) = p :: ps ∧
      p.code = 0 ∧ p.value ≠ .str str!"ENDBLK" := by
  induction es with
  | nil => exact .inl rfl
  | cons e es ih =>
    rw [List.flatMap_cons]
    unfold Entity.pairs EName.pairs at *
    by_cases hs : e.kind.supported v = true
    · rw [if_pos hs]
      obtain ⟨t, ht⟩ := e.kind.front_cons e.num v wh e.entry
      rw [ht]
      refine .inr ⟨_, _, rfl, rfl, ?_⟩
      have : ∀ k ∈ EName.all, k.kind.typeString ≠ str!"ENDBLK" := by decide +kernel
      intro h
      exact this e.kind (EName.mem_all _) (CodePairValue.str.inj h)
    · rw [if_neg hs]
      exact ih

theorem read_written (v : Version) (wh : Bool) (b : Block)
    (hp : ∀ e ∈ b.entities, e.toFlat.Proper) (ho : ∀ e ∈ b.entities, ¬ e.toFlat.OldRotated v)
    (hext : ∀ e ∈ b.entities, ExtGroup.AllPlain e.entry.ext)
    (hw : ∀ e ∈ b.entities, e.Whole v) (hpl : ExtGroup.AllPlain b.entry.ext)
    (hz : .r14 ≤ v → ∀ g ∈ b.entry.ext, ExtItem.NoZeroList g.items) (rest : Stream)
    (hr : StartsZero rest) : ∃ b' tail, b.Restored v wh b' ∧
      b.pairs v wh = .newStr 0 str!"BLOCK" :: tail ∧
      Block.read (toStream tail ++ rest) = (.ok b', rest) := by
  have hz1 : StartsZero (toStream (endPairs v wh b.entry) ++ rest) := by
    rw [endPairs_eq]
    exact ⟨_, _, rfl, rfl⟩
  obtain ⟨cs, hj, hf⟩ := Feeds.entities v wh b.entities hp ho hext
    (rest := toStream (endPairs v wh b.entry) ++ rest) hz1
    (.nil (by
      rw [endPairs_eq]
      exact nextEntity_end (s := toStream (endTail v wh b.entry) ++ rest) (.inr rfl)))
  rw [List.append_nil] at hf
  obtain ⟨fuel, hl, hre⟩ := readEntities_eq hf
  have hes := collect_echo hj hw fuel hl
  have hz2 : StartsZero (toStream (b.entities.flatMap (Entity.pairs v wh)) ++
      (toStream (endPairs v wh b.entry) ++ rest)) := by
    rcases entities_head v wh b.entities with h | ⟨p, ps, h, h0, _⟩
    · rw [h]; exact hz1
    · rw [h]; exact ⟨_, _, rfl, h0⟩
  obtain ⟨e, he, tail, htail, hloop⟩ := Blocks.kind.read_item v wh { b.entry with xdata := [] }
    (checks_spec (kind_checks wh)).1 (kind_accepts v wh _) hpl _ hz2
  refine ⟨⟨e, collect fuel cs⟩, tail ++ b.entities.flatMap (Entity.pairs v wh) ++
    endPairs v wh b.entry, ⟨reads_restored (kind_checks wh) kind_frame he, hes⟩, ?_, ?_⟩
  · unfold pairs
    rw [htail]
    rfl
  · have hfront : Rd.withFuel (fun f => itemLoop false (Entry.apply Blocks.arms) f dflt.entry)
        (toStream tail ++ (toStream (b.entities.flatMap (Entity.pairs v wh)) ++
          (toStream (endPairs v wh b.entry) ++ rest))) = (.ok e,
            toStream (b.entities.flatMap (Entity.pairs v wh)) ++
              (toStream (endPairs v wh b.entry) ++ rest)) := by
      rw [Rd.run_withFuel]
      exact hloop _ (by simp)
    unfold Block.read
    rw [Rd.run_withFuel, toStream_append, toStream_append, List.append_assoc, List.append_assoc,
      readFrom, Rd.bind_ok hfront]
    rcases entities_head v wh b.entities with h | ⟨p, ps, h, h0, hne⟩
    · have hc : collect fuel cs = [] := by
        have h1 : b.entities.filter (fun e => e.kind.supported v) = [] := by
          rw [List.filter_eq_nil_iff]
          intro e he hs
          have := List.flatMap_eq_nil_iff.mp h e he
          unfold Entity.pairs EName.pairs at this
          rw [if_pos hs] at this
          obtain ⟨t, ht⟩ := e.kind.front_cons e.num v wh e.entry
          rw [ht] at this
          cases this
        rw [h1] at hes
        exact List.forall₂_nil_left_iff.mp hes
      rw [h, hc, toStream_nil, List.nil_append, endPairs_eq, toStream_cons, List.cons_append]
      rw [Rd.bind_ok (Rd.next_cons (by simp [CodePair.newStr]) _)]
      change (if CodePairValue.str str!"ENDBLK" = CodePairValue.str str!"ENDBLK" then (swallowItem >>= fun _ =>
        (pure { Block.dflt with entry := e } : Rd Block)) else _) _ = _
      rw [if_pos rfl, Rd.bind_ok (swallow_pairs _ (endTail_inert v wh b.entry hpl hz) rest hr)]
      rfl
    · rw [h] at hre ⊢
      rw [toStream_cons, List.cons_append] at hre ⊢
      rw [Rd.bind_ok (Rd.next_cons (by omega) _)]
      change (if p.value = CodePairValue.str str!"ENDBLK" then _ else (Rd.putBack p >>= fun _ =>
        readEntities >>= fun es => readFrom _ ⟨e, [] ++ es⟩)) _ = _
      rw [if_neg hne, Rd.bind_ok (Rd.run_putBack p _), Rd.bind_ok hre]
      rw [List.length_append, endPairs_eq]
      exact endblk_read v wh ⟨e, _⟩ b.entry hpl hz rest hr _

end Block

end Dxf
