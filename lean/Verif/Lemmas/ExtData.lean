import Verif.Lemmas.Good
import Verif.Spec.ExtData

namespace Dxf

/-- Reading the written items up to the closing marker. -/
theorem readExtItems_written (items : List ExtItem) (rest : Stream) (fuel : Nat)
    (hp : ExtItem.PlainList items) (hf : (ExtItem.pairsList items).length < fuel) :
    readExtItems fuel
        (toStream (ExtItem.pairsList items) ++ some (.ok (.newStr 102 str!"}")) :: rest) =
      (.ok (ExtItem.pruneList items), rest) := by
  match items, fuel with
  | _, 0 => omega
  | [], f + 1 =>
    simp [ExtItem.pairsList, ExtItem.pruneList, readExtItems, Rd.run_bind,
      Rd.next_cons, CodePair.newStr, CodePair.assertString]
  | .pair p :: is, f + 1 =>
    simp only [ExtItem.PlainList, ExtItem.Plain] at hp
    simp only [ExtItem.pairsList, ExtItem.pairs, List.cons_append, List.nil_append,
      List.length_cons] at hf ⊢
    have ih := readExtItems_written is rest f hp.2 (by omega)
    simp only [readExtItems, Rd.run_bind, toStream_cons, List.cons_append,
      Rd.next_cons hp.1.2, if_neg hp.1.1, ih, Rd.run_pure, ExtItem.pruneList]
  | .group name [] :: is, f + 1 =>
    simp only [ExtItem.PlainList, ExtItem.Plain] at hp
    simp only [ExtItem.pairsList, ExtItem.pairs, List.nil_append] at hf ⊢
    have ih := readExtItems_written is rest (f + 1) hp.2 hf
    rw [ih]
    simp [ExtItem.pruneList]
  | .group name (i :: r) :: is, f + 1 =>
    simp only [ExtItem.PlainList, ExtItem.Plain] at hp
    have e1 : ExtItem.pairsList (.group name (i :: r) :: is) =
        .newStr 102 ('{' :: name) :: ExtItem.pairsList (i :: r) ++
          .newStr 102 str!"}" :: ExtItem.pairsList is := by
      simp [ExtItem.pairsList, ExtItem.pairs]
    rw [e1] at hf ⊢
    simp only [List.length_append, List.length_cons, List.cons_append] at hf
    have ih1 := readExtItems_written (i :: r)
      (toStream (ExtItem.pairsList is) ++ some (.ok (.newStr 102 str!"}")) :: rest) f hp.1
      (by omega)
    have ih2 := readExtItems_written is rest f hp.2 (by omega)
    simp only [CodePair.newStr] at ih1 ih2
    simp [List.append_assoc, readExtItems, Rd.run_bind, Rd.next_cons, CodePair.newStr,
      CodePair.assertString, ih1, ih2, ExtItem.pruneList, ExtItem.prune]
termination_by sizeOf items

mutual
theorem ExtItem.prune_eq (i : ExtItem) (h : ExtItem.NoEmpty i) : ExtItem.prune i = i := by
  match i with
  | .pair p => simp [ExtItem.prune]
  | .group name items =>
    simp only [ExtItem.NoEmpty] at h
    simp [ExtItem.prune, ExtItem.pruneList_eq items h.2]
theorem ExtItem.pruneList_eq (is : List ExtItem) (h : ExtItem.NoEmptyList is) :
    ExtItem.pruneList is = is := by
  match is with
  | [] => simp [ExtItem.pruneList]
  | .pair p :: is =>
    simp only [ExtItem.NoEmptyList] at h
    simp [ExtItem.pruneList, ExtItem.pruneList_eq is h.2]
  | .group name [] :: is => simp [ExtItem.NoEmptyList, ExtItem.NoEmpty] at h
  | .group name (i :: r) :: is =>
    simp only [ExtItem.NoEmptyList] at h
    simp only [ExtItem.pruneList, ExtItem.pruneList_eq is h.2]
    rw [ExtItem.prune_eq _ h.1]
end

theorem readExtItems_good (fuel : Nat) : ∀ s : Stream, NoBad s → s.length < fuel →
    Good s.length (readExtItems fuel s) := by
  induction fuel with
  | zero => intro s _ h; omega
  | succ f ih =>
    intro s hs hf
    unfold readExtItems
    refine Good.bind (Good.next hs (by omega)) fun p s1 e1 h1 l1 => ?_
    have := Rd.next_lt e1
    split
    · refine Good.bind (Good.lift (.assertString p) h1 l1) fun t s2 e2 h2 l2 => ?_
      have es : s2 = s1 := by simp at e2; exact e2.2.symm
      subst es
      split
      · refine Good.bind ((ih _ h2 (by omega)).mono l2) fun sub s3 e3 h3 l3 => ?_
        have h3' := (ih _ h2 (by omega)).2.2
        rw [e3] at h3'
        simp only at h3'
        refine Good.bind ((ih _ h3 (by omega)).mono l3) fun r s4 _ h4 l4 => ?_
        exact Good.pure h4 l4
      · split
        · exact Good.pure h2 l2
        · exact Good.fail (by simp [DxfErr.Bad]) h2 l2
    · refine Good.bind ((ih _ h1 (by omega)).mono l1) fun r s4 _ h4 l4 => ?_
      exact Good.pure h4 l4

theorem ExtGroup.read_good (name : Str) (off : Nat) (s : Stream) (hs : NoBad s) :
    Good s.length (ExtGroup.read name off s) := by
  unfold ExtGroup.read
  split
  · exact Good.bind (readExtItems_good _ s hs (by omega)) fun _ _ _ h l => Good.pure h l
  · exact Good.fail (e := .parseError off) (by simp [DxfErr.Bad]) hs (Nat.le_refl _)

/-- Reading the group written for `g`, after its opening pair. -/
theorem ExtGroup.read_written (g : ExtGroup) (hne : g.items ≠ []) (hp : ExtItem.PlainList g.items)
    (off : Nat) (rest : Stream) :
    ExtGroup.read ('{' :: g.name) off
        (toStream (ExtItem.pairsList g.items) ++ some (.ok (.newStr 102 str!"}")) :: rest) =
      (.ok ⟨g.name, ExtItem.pruneList g.items⟩, rest) := by
  unfold ExtGroup.read
  change Rd.withFuel _ _ = _
  rw [Rd.run_withFuel, Rd.run_bind, readExtItems_written g.items rest _ hp (by simp; omega)]
  rfl

end Dxf
