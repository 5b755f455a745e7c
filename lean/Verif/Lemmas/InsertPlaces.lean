import Verif.Lemmas.InsertCodes

/-! Places in a file at which something may be changed. -/

namespace Dxf

theorem fine_toStream (ps : List CodePair) : Fine false (toStream ps) := by
  intro it h
  simp only [toStream, List.mem_map] at h
  obtain ⟨p, _, rfl⟩ := h
  simp

namespace Drawing

variable {Img : Type} {codec : ImageCodec Img} {h0 : Header} {order : List Str}

theorem Same.load_eq {s s' : Stream} (h : Same (load codec h0 order) s s')
    (hr : (load codec h0 order s).1 ≠ .error .outOfFuel) :
    (load codec h0 order s').1 = (load codec h0 order s).1 := (h hr).1

theorem inSection_same {name : Str} {a b b' : List CodePair} {d : Drawing Img}
    (h : InSection codec h0 order name a b d) (hl : b.length ≤ b'.length)
    (hs : Same (readSection codec h0 name d) (toStream b) (toStream b')) :
    Same (load codec h0 order) (toStream (a ++ b)) (toStream (a ++ b')) := by
  obtain ⟨a, op, nm, b, d, hop, hnm, h⟩ := h
  have e : ∀ y, toStream (a ++ [op, nm] ++ y) =
      toStream a ++ some (.ok op) :: some (.ok nm) :: toStream y := by
    intro y; simp [toStream]
  have hf := fine_toStream (a ++ [op, nm] ++ b)
  rw [e] at hf ⊢
  rw [e]
  refine inside_same codec h0 order hop hnm (by simpa [toStream_length] using hl) hf
    (fun d0 hn => ?_) hs
  have := h d0 hn
  rw [show toStream (a ++ op :: nm :: b) = toStream a ++ some (.ok op) :: some (.ok nm) :: toStream b
    by simp [toStream]] at this
  exact this

theorem inTable_load {t : TName} {a b b' : List CodePair} (h : InTable codec h0 order t a b)
    (hl : b.length ≤ b'.length)
    (hs : Same (Rd.withFuel t.kind.read) (toStream b) (toStream b')) :
    Same (load codec h0 order) (toStream (a ++ b)) (toStream (a ++ b')) := by
  obtain ⟨a, c, op, nm, b, d, d', hop, hnm, h, hst⟩ := h
  have e : ∀ y, a ++ c ++ [op, nm] ++ y = a ++ (c ++ op :: nm :: y) := by simp
  rw [e, e]
  refine inSection_same h (by simpa using hl) ?_
  have e2 : ∀ y, toStream (c ++ op :: nm :: y) =
    toStream c ++ some (.ok op) :: some (.ok nm) :: toStream y := by intro y; simp [toStream]
  have hf := fine_toStream (c ++ op :: nm :: b)
  rw [e2] at hf ⊢ hst
  rw [e2]
  unfold readSection
  rw [if_neg (by decide), if_neg (by decide), if_pos rfl]
  refine inTable_same hop hnm (t := t) ?_ (by simpa [toStream_length] using hl) hf hst hs
  clear hs hnm
  cases t <;> decide +kernel

theorem inBlock_load {a b b' : List CodePair} (h : InBlock codec h0 order a b)
    (hl : b.length ≤ b'.length) (hs : Same Block.read (toStream b) (toStream b')) :
    Same (load codec h0 order) (toStream (a ++ b)) (toStream (a ++ b')) := by
  obtain ⟨a, c, op, b, d, d', hop, h, hst⟩ := h
  have e : ∀ y, a ++ c ++ [op] ++ y = a ++ (c ++ op :: y) := by simp
  rw [e, e]
  refine inSection_same h (by simpa using hl) ?_
  have e2 : ∀ y, toStream (c ++ op :: y) = toStream c ++ some (.ok op) :: toStream y := by
    intro y; simp [toStream]
  have hf := fine_toStream (c ++ op :: b)
  rw [e2] at hf ⊢ hst
  rw [e2]
  unfold readSection
  rw [if_neg (by decide), if_neg (by decide), if_neg (by decide), if_pos rfl]
  exact blocks_same hop (by simpa [toStream_length] using hl) hf hst hs

theorem entities_load {a b c c' : List CodePair} {q q' : CodePair} (hq : q.code = 0)
    (hq' : q'.code = 0) (h : BeforeEntities codec h0 order a (b ++ q :: c))
    (hl : c.length < c'.length ∨ c.length ≤ c'.length ∧ q = q')
    (hi : Ins nextEntity (toStream (b ++ q :: c)) (toStream (b ++ q' :: c'))) :
    Same (load codec h0 order) (toStream (a ++ (b ++ q :: c))) (toStream (a ++ (b ++ q' :: c'))) := by
  generalize hy : b ++ q :: c = y at h
  cases h with
  | drawing a y d h =>
    subst hy
    refine inSection_same h (by simp; omega) ?_
    unfold readSection
    rw [if_neg (by decide), if_neg (by decide), if_neg (by decide), if_neg (by decide), if_pos rfl]
    exact entitySection_same d hi
  | block a f y e h hf =>
    subst hy
    rw [List.append_assoc, List.append_assoc]
    refine inBlock_load h (by simp; omega) ?_
    have e2 : ∀ q c, toStream (f ++ (b ++ q :: c)) =
        toStream f ++ (toStream b ++ some (.ok q) :: toStream c) := by intro q c; simp [toStream]
    have e3 : ∀ q c, toStream (b ++ q :: c) = toStream b ++ some (.ok q) :: toStream c := by
      intro q c; simp [toStream]
    have hfi := fine_toStream (f ++ (b ++ q :: c))
    rw [e2] at hf hfi ⊢
    rw [e2]
    rw [e3] at hf
    rw [e3, e3] at hi
    exact block_same hq hq' (by simpa [toStream_length] using hl) hf hi hfi

end Drawing

end Dxf
