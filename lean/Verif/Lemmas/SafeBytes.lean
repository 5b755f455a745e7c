import Verif.Lemmas.SafeFile
import Verif.Lemmas.Readers
import Verif.Model.Bytes

/-! The readers of pairs do not panic. -/

namespace Dxf

theorem goodE_map {α β : Type} {f : α → β} {x : Except DxfErr α} (h : GoodE x) :
    GoodE (x.map f) := by
  cases x with
  | ok a => intro e he; cases he
  | error e =>
    intro e' he
    cases he
    exact h e rfl

theorem parseHexLoop_good (off : Nat) (s : Str) : ∀ b n, GoodE (parseHexLoop off b n s) := by
  induction s with
  | nil => intro b n e h; cases h
  | cons c s ih =>
    intro b n e h
    rw [parseHexLoop] at h
    split at h
    · cases h; simp [DxfErr.Bad]
    · split at h
      · split at h
        · cases h
        · rename_i e' h'
          cases h
          exact ih _ _ _ h'
      · exact ih _ _ _ h

theorem parseValue_good (enc : Enc) (ty : ExpectedType) (line : Str) (off : Nat) :
    GoodE (TextIter.parseValue enc ty line off) := by
  have hi : GoodE (parseI32 line off) := by
    intro e h; unfold parseI32 at h; split at h <;> cases h; simp [DxfErr.Bad]
  have hl : GoodE (parseI64 line off) := by
    intro e h; unfold parseI64 at h; split at h <;> cases h; simp [DxfErr.Bad]
  have hf : GoodE (parseF64 line off) := by
    intro e h; unfold parseF64 at h; split at h <;> cases h; simp [DxfErr.Bad]
  have hs : GoodE (parseI16 line off) := by
    intro e h; unfold parseI16 at h
    split at h
    · cases h
    · cases h; simp [DxfErr.Bad]
  cases ty
  · exact goodE_map hs
  · exact goodE_map hi
  · exact goodE_map hl
  · exact goodE_map hs
  · exact goodE_map hf
  · intro e h; cases h
  · exact goodE_map (parseHexLoop_good _ _ _ _)

theorem readLine_good (b : Bool) (enc : Enc) (bs : List Byte) : GoodE (readLine b enc bs).1 := by
  intro e h
  unfold readLine at h
  dsimp only at h
  split at h <;> cases h
  simp [DxfErr.Bad]

theorem textNext_good (t : TextIter) {e : DxfErr} (h : t.next.1 = some (.error e)) : ¬ e.Bad := by
  unfold TextIter.next at h
  dsimp only at h
  split at h
  · rename_i e' h'
    cases h
    unfold TextIter.readCode at h'
    split at h'
    · cases h'
    · exact readLine_good _ _ _ _ h'
  · split at h
    · cases h
    · split at h
      · rename_i e' h'
        cases h
        unfold parseI32 at h'
        split at h' <;> cases h'
        simp [DxfErr.Bad]
      · unfold TextIter.readValue at h
        dsimp only at h
        split at h
        · rename_i e' h'
          cases h
          exact readLine_good _ _ _ _ h'
        · split at h
          · cases h; simp [DxfErr.Bad]
          · split at h
            · rename_i e' h'
              cases h
              exact parseValue_good _ _ _ _ _ h'
            · cases h

theorem textItems_noBad (n : Nat) : ∀ t, NoBad (TextIter.items n t) := by
  induction n with
  | zero => intro t e h; cases h
  | succ n ih =>
    intro t e h
    rw [TextIter.items] at h
    split at h
    · cases h
    · rcases List.mem_cons.mp h with h | h
      · exact textNext_good t h.symm
      · exact ih _ _ h

theorem readBytes_good (n : Nat) (bs : List Byte) : GoodE (readBytes n bs).1 := by
  intro e h
  unfold readBytes at h
  split at h <;> cases h
  simp [DxfErr.Bad]

theorem readStringBin_good (bs : List Byte) : GoodE (readStringBin bs).1 := by
  induction bs with
  | nil => intro e h; cases h; simp [DxfErr.Bad]
  | cons b bs ih =>
    intro e h
    rw [readStringBin] at h
    split at h
    · cases h
    · exact goodE_map ih e h

theorem binValue_good (t : BinIter) (code : Int) (ty : ExpectedType) :
    GoodE (t.readValue code ty).1 := by
  have hw : ∀ n f, GoodE (t.readWord n f).1 := fun n f => goodE_map (readBytes_good n _)
  unfold BinIter.readValue
  cases ty
  · dsimp only
    split
    · exact hw _ _
    · exact hw _ _
  · exact hw _ _
  · exact hw _ _
  · exact hw _ _
  · exact hw _ _
  · intro e h
    dsimp only at h
    unfold BinIter.readStr at h
    dsimp only at h
    split at h
    · rename_i e' h'
      cases h
      exact readStringBin_good _ _ h'
    · split at h
      · split at h
        · rename_i e' h'
          cases h
          exact readStringBin_good _ _ h'
        · cases h
      · cases h
  · intro e h
    dsimp only at h
    unfold BinIter.readChunk at h
    dsimp only at h
    split at h
    · rename_i e' h'
      cases h
      exact readBytes_good _ _ _ h'
    · exact goodE_map (readBytes_good _ _) e h

theorem binNext_good (t : BinIter) {e : DxfErr} (h : t.next.1 = some (.error e)) : ¬ e.Bad := by
  unfold BinIter.next at h
  dsimp only at h
  split at h
  · cases h
  · rename_i e' h'
    cases h
    unfold BinIter.readCode at h'
    split at h'
    · cases h'
    · dsimp only at h'
      split at h'
      · split at h'
        · rename_i h''
          cases h'
          exact readBytes_good _ _ _ h''
        · cases h'
      · split at h'
        · split at h'
          · rename_i h''
            cases h'
            exact readBytes_good _ _ _ h''
          · cases h'
        · cases h'
  · split at h
    · cases h; simp [DxfErr.Bad]
    · split at h
      · rename_i e' h'
        cases h
        exact binValue_good _ _ _ _ h'
      · cases h

theorem binItems_noBad (n : Nat) : ∀ t, NoBad (BinIter.items n t) := by
  induction n with
  | zero => intro t e h; cases h
  | succ n ih =>
    intro t e h
    rw [BinIter.items] at h
    split at h
    · cases h
    · rcases List.mem_cons.mp h with h | h
      · exact binNext_good t h.symm
      · exact ih _ _ h

/-- What the readers give for the bytes of a file is neither a panic nor endless. -/
theorem fileItems_good (enc : Enc) (file : List Byte) :
    GoodE (fileItems enc file) ∧ ∀ main alt, fileItems enc file = .ok (some (main, alt)) →
      NoBad main ∧ NoBad alt ∧ main.length ≤ file.length + 1 ∧ alt.length ≤ file.length + 1 := by
  have hlen := readLine_length_le true enc file
  unfold fileItems
  dsimp only
  cases hr : (readLine true enc file).1 with
  | error e =>
    refine ⟨fun e' h => ?_, fun _ _ h => by cases h⟩
    cases h
    exact readLine_good _ _ _ _ hr
  | ok l =>
    dsimp only
    split
    · exact ⟨fun _ h => (by cases h), fun _ _ h => by cases h⟩
    · generalize (readLine true enc file).2 = bytes at hlen
      unfold newPairIter
      split
      · cases bytes with
        | nil => exact ⟨goodE_map fun e h => (by cases h; simp [DxfErr.Bad]), fun _ _ h => by cases h⟩
        | cons b bs =>
          dsimp only
          split
          · exact ⟨goodE_map fun e h => (by cases h; simp [DxfErr.Bad]), fun _ _ h => by cases h⟩
          · cases bs with
            | nil =>
              exact ⟨goodE_map fun e h => (by cases h; simp [DxfErr.Bad]), fun _ _ h => by cases h⟩
            | cons c cs =>
              dsimp only
              split
              · exact ⟨goodE_map fun e h => (by cases h; simp [DxfErr.Bad]), fun _ _ h => by cases h⟩
              · refine ⟨goodE_map fun e h => (by cases h), fun main alt h => ?_⟩
                simp only [Except.map, Except.ok.injEq, Option.some.injEq, Prod.mk.injEq] at h
                obtain ⟨rfl, rfl⟩ := h
                have := items_bin_length (cs.length + 1) ⟨cs, false, false, 20⟩
                have h2 : (BinIter.all ⟨cs, false, false, 20⟩).length ≤ cs.length := this
                simp only [List.length_cons] at hlen
                exact ⟨binItems_noBad _ _, binItems_noBad _ _, by omega, by omega⟩
      · refine ⟨goodE_map fun e h => (by cases h), fun main alt h => ?_⟩
        simp only [Except.map, Except.ok.injEq, Option.some.injEq, Prod.mk.injEq] at h
        obtain ⟨rfl, rfl⟩ := h
        have h1 : ∀ t : TextIter, t.all.length ≤ t.bytes.length + 1 := fun t => by
          refine Nat.le_trans (items_length _ t) ?_
          unfold TextIter.work
          split <;> omega
        exact ⟨textItems_noBad _ _, textItems_noBad _ _, Nat.le_trans (h1 _) (Nat.succ_le_succ hlen),
          Nat.le_trans (h1 _) (Nat.succ_le_succ hlen)⟩

namespace Drawing

variable {Img : Type}

/-- The pairs the loader is given are those of the two readers. -/
theorem switched_mem {codec : ImageCodec Img} {h0 : Header} {order : List Str} {main alt : Stream}
    {it : Item} (h : it ∈ switched codec h0 order main alt) : it ∈ main ∨ it ∈ alt := by
  unfold switched at h
  split at h
  · rcases List.mem_append.mp h with h | h
    · exact .inl (List.mem_of_mem_take h)
    · exact .inr (List.mem_of_mem_drop h)
  · exact .inl h

theorem switched_length_le (codec : ImageCodec Img) (h0 : Header) (order : List Str)
    (main alt : Stream) :
    (switched codec h0 order main alt).length ≤ main.length + alt.length := by
  unfold switched
  split
  · rw [List.length_append, List.length_take, List.length_drop]
    omega
  · omega

end Drawing

end Dxf
