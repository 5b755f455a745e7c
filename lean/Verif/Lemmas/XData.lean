import Verif.Lemmas.Good
import Verif.Lemmas.Hex
import Verif.Model.XData

namespace Dxf
namespace XDataItem

theorem readDouble_cons (c : Int) (hc : c ≠ 999) (x : F64) (s : Stream) :
    readDouble c (some (.ok (.newF64 c x)) :: s) = (.ok x, s) := by
  simp [readDouble, Rd.run_bind, Rd.next_cons, CodePair.newF64, hc, CodePair.assertF64]

/-- The first pair written for an item, and the others. -/
theorem pairs_cons (i : XDataItem) : ∃ p ps, i.pairs = p :: ps ∧ 1000 ≤ p.code ∧ p.code ≠ 1001 ∧
    (p.code = 1002 → p.assertString = .ok str!"{") := by
  cases i <;> simp [pairs, CodePair.newStr, CodePair.newF64, CodePair.newI16, CodePair.newI32,
    CodePair.assertString]

mutual
theorem codes_ge (i : XDataItem) : ∀ p ∈ i.pairs, 1000 ≤ p.code := by
  match i with
  | .controlGroup items =>
    intro p hp
    simp only [pairs, List.cons_append, List.mem_cons, List.mem_append, List.not_mem_nil,
      or_false] at hp
    rcases hp with rfl | hp | rfl
    · decide
    · exact codes_ge_list items p hp
    · decide
  | .str .. | .layerName .. | .binaryData .. | .handle .. | .threeReals .. |
    .worldSpacePosition .. | .worldSpaceDisplacement .. | .worldDirection .. | .real .. |
    .distance .. | .scaleFactor .. | .integer .. | .long .. =>
    simp [pairs, CodePair.newStr, CodePair.newF64, CodePair.newI16, CodePair.newI32,
      CodePair.newBinary]

theorem codes_ge_list (is : List XDataItem) : ∀ p ∈ pairsList is, 1000 ≤ p.code := by
  match is with
  | [] => simp [pairsList]
  | i :: is =>
    intro p hp
    rw [pairsList, List.mem_append] at hp
    exact hp.elim (codes_ge i p) (codes_ge_list is p)
end

theorem pairs_length_pos (i : XDataItem) : 0 < i.pairs.length := by
  obtain ⟨p, ps, h, _⟩ := pairs_cons i
  simp [h]

mutual
theorem readItem_written (i : XDataItem) (p : CodePair) (ps : List CodePair) (rest : Stream)
    (f : Nat) (h : i.pairs = p :: ps) (hf : i.pairs.length ≤ f + 1) :
    readItem (readGroup f) p (toStream ps ++ rest) = (.ok i, rest) := by
  match i with
  | .controlGroup items =>
    have hg := readGroup_written items rest f (by
      simp only [pairs, List.length_append, List.length_cons, List.cons_append] at hf
      omega)
    simp only [pairs, List.cons_append, List.cons.injEq] at h
    obtain ⟨rfl, rfl⟩ := h
    simp only [CodePair.newStr] at hg
    simp [readItem, CodePair.newStr, Rd.run_bind, hg]
  | .handle hh =>
    simp only [pairs, List.cons.injEq] at h
    obtain ⟨rfl, rfl⟩ := h
    have := asHandle_text 1005 0 hh [] [] (by simp) (by simp)
    simp only [List.nil_append, List.append_nil] at this
    simp [readItem, CodePair.newStr, Rd.run_bind, this]
  | .binaryData b =>
    simp only [pairs, List.cons.injEq] at h
    obtain ⟨rfl, rfl⟩ := h
    have := parseHexString_binary 0 b
    simp only [fmtBinary] at this
    simp [readItem, CodePair.newStr, Rd.run_bind, CodePair.assertString, this]
  | .str s =>
    simp only [pairs, List.cons.injEq] at h
    obtain ⟨rfl, rfl⟩ := h
    simp [readItem, CodePair.newStr, Rd.run_bind, CodePair.assertString]
  | .layerName s =>
    simp only [pairs, List.cons.injEq] at h
    obtain ⟨rfl, rfl⟩ := h
    simp [readItem, CodePair.newStr, Rd.run_bind, CodePair.assertString]
  | .threeReals x y z =>
    simp only [pairs, List.cons.injEq] at h
    obtain ⟨rfl, rfl⟩ := h
    simp [readItem, Rd.run_bind, CodePair.newF64, readDouble, Rd.next_cons, CodePair.assertF64]
  | .worldSpacePosition x =>
    simp only [pairs, List.cons.injEq] at h
    obtain ⟨rfl, rfl⟩ := h
    simp [readItem, Rd.run_bind, CodePair.newF64, readDouble, readPoint, Rd.next_cons,
      CodePair.assertF64]
  | .worldSpaceDisplacement x =>
    simp only [pairs, List.cons.injEq] at h
    obtain ⟨rfl, rfl⟩ := h
    simp [readItem, Rd.run_bind, CodePair.newF64, readDouble, readPoint, Rd.next_cons,
      CodePair.assertF64]
  | .worldDirection x =>
    simp only [pairs, List.cons.injEq] at h
    obtain ⟨rfl, rfl⟩ := h
    simp [readItem, Rd.run_bind, CodePair.newF64, readDouble, readPoint, Rd.next_cons,
      CodePair.assertF64]
  | .real x =>
    simp only [pairs, List.cons.injEq] at h
    obtain ⟨rfl, rfl⟩ := h
    simp [readItem, Rd.run_bind, CodePair.newF64, CodePair.assertF64]
  | .distance x =>
    simp only [pairs, List.cons.injEq] at h
    obtain ⟨rfl, rfl⟩ := h
    simp [readItem, Rd.run_bind, CodePair.newF64, CodePair.assertF64]
  | .scaleFactor x =>
    simp only [pairs, List.cons.injEq] at h
    obtain ⟨rfl, rfl⟩ := h
    simp [readItem, Rd.run_bind, CodePair.newF64, CodePair.assertF64]
  | .integer x =>
    simp only [pairs, List.cons.injEq] at h
    obtain ⟨rfl, rfl⟩ := h
    simp [readItem, Rd.run_bind, CodePair.newI16, CodePair.assertI16]
  | .long x =>
    simp only [pairs, List.cons.injEq] at h
    obtain ⟨rfl, rfl⟩ := h
    simp [readItem, Rd.run_bind, CodePair.newI32, CodePair.assertI32]
termination_by sizeOf i

theorem readGroup_written (items : List XDataItem) (rest : Stream) (fuel : Nat)
    (hf : (pairsList items).length < fuel) :
    readGroup fuel (toStream (pairsList items) ++ some (.ok (.newStr 1002 str!"}")) :: rest) =
      (.ok items, rest) := by
  match items, fuel with
  | _, 0 => omega
  | [], f + 1 =>
    simp [pairsList, readGroup, Rd.run_bind, Rd.next_cons, CodePair.newStr,
      CodePair.assertString, Except.map]
  | i :: is, f + 1 =>
    obtain ⟨p, ps, h, h1, h2, h3⟩ := pairs_cons i
    simp only [pairsList, List.length_append] at hf
    have hpos := pairs_length_pos i
    have hi := readItem_written i p ps
      (toStream (pairsList is) ++ some (.ok (.newStr 1002 str!"}")) :: rest) f h (by omega)
    have hg := readGroup_written is rest f (by omega)
    simp only [pairsList, h, List.cons_append, toStream_cons, toStream_append, List.append_assoc]
    have hlt : ¬ p.code < 1000 := by omega
    have h9 : p.code ≠ 999 := by omega
    by_cases hc : p.code = 1002
    · simp [readGroup, Rd.run_bind, Rd.next_cons h9, h3 hc, Except.map, hlt, hc, hi, hg]
    · simp [readGroup, Rd.run_bind, Rd.next_cons h9, hlt, hc, hi, hg]
termination_by sizeOf items
end

end XDataItem

/-- What may follow extended data in a pair stream: the end, or a pair with code 1001 or
below 1000 (and not a comment). -/
def XData.Stops (rest : Stream) : Prop :=
  rest = [] ∨ ∃ q s, rest = some (.ok q) :: s ∧ (q.code = 1001 ∨ q.code < 1000) ∧ q.code ≠ 999

theorem XData.readItems_written (items : List XDataItem) (rest : Stream) (fuel : Nat)
    (hr : XData.Stops rest) (hf : (XDataItem.pairsList items).length < fuel) :
    XData.readItems fuel (toStream (XDataItem.pairsList items) ++ rest) = (.ok items, rest) := by
  induction items generalizing fuel with
  | nil =>
    obtain ⟨f, rfl⟩ : ∃ f, fuel = f + 1 := ⟨fuel - 1, by omega⟩
    rcases hr with rfl | ⟨q, s, rfl, hq, h9⟩
    · simp [XDataItem.pairsList, XData.readItems, Rd.run_bind]
    · by_cases h0 : q.code = 0 <;>
        simp [XDataItem.pairsList, XData.readItems, Rd.run_bind, Rd.next?_cons h9, h0, hq]
  | cons i is ih =>
    obtain ⟨f, rfl⟩ : ∃ f, fuel = f + 1 := ⟨fuel - 1, by omega⟩
    obtain ⟨p, ps, h, h1, h2, h3⟩ := XDataItem.pairs_cons i
    simp only [XDataItem.pairsList, List.length_append] at hf
    have hpos := XDataItem.pairs_length_pos i
    have hi := XDataItem.readItem_written i p ps (toStream (XDataItem.pairsList is) ++ rest) f h
      (by omega)
    have hg := ih f (by omega)
    simp only [XDataItem.pairsList, h, List.cons_append, toStream_cons, toStream_append,
      List.append_assoc]
    have hlt : ¬ p.code < 1000 := by omega
    have h0 : ¬ p.code = 0 := by omega
    have h9 : p.code ≠ 999 := by omega
    simp [XData.readItems, Rd.run_bind, Rd.next?_cons h9, hlt, h0, h2, hi, hg]

namespace XDataItem

theorem readDouble_good {n : Nat} (c : Int) (s : Stream) (hs : NoBad s) (hn : s.length ≤ n) :
    Good n (readDouble c s) := by
  unfold readDouble
  refine Good.bind (Good.next hs (by omega)) fun p s1 e1 h1 l1 => ?_
  split
  · exact Good.lift (.assertF64 p) h1 l1
  · exact Good.fail (by simp [DxfErr.Bad]) h1 l1

theorem readPoint_good {n : Nat} (x : F64) (c : Int) (s : Stream) (hs : NoBad s)
    (hn : s.length ≤ n) : Good n (readPoint x c s) := by
  unfold readPoint
  refine Good.bind (readDouble_good _ s hs hn) fun p s1 e1 h1 l1 => ?_
  refine Good.bind (readDouble_good _ s1 h1 l1) fun p s2 e2 h2 l2 => ?_
  exact Good.pure h2 l2

theorem readItem_good {n : Nat} {group : Rd (List XDataItem)} {p : CodePair} {s : Stream}
    (hs : NoBad s) (hn : s.length ≤ n) (hg : Good n (group s)) : Good n (readItem group p s) := by
  unfold readItem
  repeat' refine Good.ite (fun _ => ?_) (fun _ => ?_)
  all_goals first
    | exact Good.bind (Good.lift (.assertString p) hs hn) fun _ _ _ h l => Good.pure h l
    | exact Good.bind hg fun _ _ _ h l => Good.pure h l
    | exact Good.bind (Good.lift (.asHandle p) hs hn) fun _ _ _ h l => Good.pure h l
    | exact Good.bind (Good.lift (.assertI16 p) hs hn) fun _ _ _ h l => Good.pure h l
    | exact Good.bind (Good.lift (.assertI32 p) hs hn) fun _ _ _ h l => Good.pure h l
    | exact Good.bind (Good.lift (.assertF64 p) hs hn) fun _ _ _ h l => Good.pure h l
    | exact Good.bind (Good.lift (.assertString p) hs hn) fun _ _ _ h l =>
        Good.bind (Good.lift (.parseHexString _ _) h l) fun _ _ _ h l => Good.pure h l
    | exact Good.bind (Good.lift (.assertF64 p) hs hn) fun _ _ _ h l =>
        Good.bind (readPoint_good _ _ _ h l) fun _ _ _ h l => Good.pure h l
    | exact Good.bind (Good.lift (.assertF64 p) hs hn) fun _ _ _ h l =>
        Good.bind (readDouble_good _ _ h l) fun _ _ _ h l =>
        Good.bind (readDouble_good _ _ h l) fun _ _ _ h l => Good.pure h l
    | (refine Good.fail ?_ hs hn; simp [DxfErr.Bad])

theorem readGroup_good (fuel : Nat) : ∀ s : Stream, NoBad s → s.length < fuel →
    Good s.length (readGroup fuel s) := by
  induction fuel with
  | zero => intro s _ h; omega
  | succ f ih =>
    intro s hs hf
    unfold readGroup
    refine Good.bind (Good.next hs (by omega)) fun p s1 e1 h1 l1 => ?_
    have := Rd.next_lt e1
    split
    · exact Good.fail (by simp [DxfErr.Bad]) h1 l1
    · have key : ∀ close : Bool, Good s.length ((do
          if close then return []
          else
            let i ← readItem (readGroup f) p
            let is ← readGroup f
            return i :: is : Rd (List XDataItem)) s1) := by
        intro close
        split
        · exact Good.pure h1 l1
        · have hi := readItem_good (p := p) h1 (Nat.le_refl _) (ih s1 h1 (by omega))
          refine Good.bind (hi.mono l1) fun i s2 e2 h2 l2 => ?_
          rw [e2] at hi
          have hl := hi.2.2
          simp only at hl
          refine Good.bind ((ih s2 h2 (by omega)).mono l2) fun _ _ _ h l => Good.pure h l
      split
      · refine Good.bind (Good.lift (GoodE.map (.assertString p)) h1 l1) fun t s2 e2 h2 l2 => ?_
        have es : s2 = s1 := by simp at e2; exact e2.2.symm
        subst es
        exact key t
      · exact key false

end XDataItem

theorem XData.readItems_good (fuel : Nat) : ∀ s : Stream, NoBad s → s.length < fuel →
    Good s.length (XData.readItems fuel s) := by
  induction fuel with
  | zero => intro s _ h; omega
  | succ f ih =>
    intro s hs hf
    unfold XData.readItems
    refine Good.bind (Good.next? hs (by omega)) fun p s1 e1 h1 l1 => ?_
    split
    · exact Good.pure h1 l1
    · have := Rd.next?_lt e1
      repeat' split
      · exact Good.bind (Good.putBack h1 (by omega)) fun _ _ _ h l => Good.pure h l
      · exact Good.bind (Good.putBack h1 (by omega)) fun _ _ _ h l => Good.pure h l
      · rename_i pr _ _
        have hi := XDataItem.readItem_good (p := pr) h1 (Nat.le_refl _)
          (XDataItem.readGroup_good f s1 h1 (by omega))
        refine Good.bind (hi.mono l1) fun i s2 e2 h2 l2 => ?_
        rw [e2] at hi
        have hl := hi.2.2
        simp only at hl
        refine Good.bind ((ih s2 h2 (by omega)).mono l2) fun _ _ _ h l => Good.pure h l

theorem XData.read_good (name : Str) (s : Stream) (hs : NoBad s) :
    Good s.length (XData.read name s) := by
  unfold XData.read
  exact Good.bind (XData.readItems_good _ s hs (by omega)) fun _ _ _ h l => Good.pure h l

theorem XData.read_written (x : XData) (rest : Stream) (hr : XData.Stops rest) :
    XData.read x.name (toStream (XDataItem.pairsList x.items) ++ rest) = (.ok x, rest) := by
  unfold XData.read
  rw [Rd.run_withFuel, Rd.run_bind, XData.readItems_written x.items rest _ hr (by simp; omega)]
  rfl

end Dxf
