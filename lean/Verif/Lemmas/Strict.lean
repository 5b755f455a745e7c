import Verif.Lemmas.NiceFile

/-! Most readers do not pass over an item that is an error. -/

namespace Dxf

/-- An error. -/
def isErr : Item → Bool
  | some (.error _) => true
  | _ => false

/-- The number of errors still to come. -/
def errs (s : Stream) : Nat := s.countP isErr

theorem errs_cons_ok (p : CodePair) (s : Stream) : errs (some (.ok p) :: s) = errs s := by
  simp [errs, isErr]

/-- A reader that succeeds has read no error. -/
def Strict {α : Type} (r : Rd α) : Prop := ∀ s a s', r s = (.ok a, s') → errs s' = errs s

theorem Stream.next_errs (s : Stream) (h : ∀ e, s.next.1 ≠ some (.error e)) :
    errs s.next.2 = errs s := by
  induction s with
  | nil => rfl
  | cons it r ih =>
    rw [Stream.next] at h ⊢
    split at h
    · rename_i hc
      rw [if_pos hc, ih h]
      unfold isComment at hc
      split at hc
      · rw [errs_cons_ok]
      · simp at hc
    · rename_i hc
      rw [if_neg hc]
      rcases it with _ | (e | p)
      · simp [errs, isErr]
      · exact absurd rfl (h e)
      · exact (errs_cons_ok _ _).symm

namespace Strict

variable {α β : Type}

theorem pure {a : α} : Strict (Pure.pure a : Rd α) := fun s _ _ h => by cases h; rfl
theorem fail {e : DxfErr} : Strict (Rd.fail e : Rd α) := fun s _ _ h => by cases h
theorem lift {x : Except DxfErr α} : Strict (Rd.lift x) := fun s _ _ h => by cases h; rfl

theorem bind {m : Rd α} {f : α → Rd β} (hm : Strict m) (hf : ∀ a, Strict (f a)) :
    Strict (m >>= f) := by
  intro s b s' h
  rw [Rd.run_bind] at h
  rcases hms : m s with ⟨x, t⟩
  rw [hms] at h
  cases x with
  | ok a => rw [hf a _ _ _ h, hm _ _ _ hms]
  | error e => cases h

theorem ite {c : Prop} [Decidable c] {a b : Rd α} (ha : c → Strict a) (hb : ¬ c → Strict b) :
    Strict (if c then a else b) := by
  by_cases h : c
  · rw [if_pos h]; exact ha h
  · rw [if_neg h]; exact hb h

theorem withFuel {f : Nat → Rd α} (h : ∀ k, Strict (f k)) : Strict (Rd.withFuel f) :=
  fun s a s' hs => h _ s a s' hs

theorem putBack {p : CodePair} : Strict (Rd.putBack p) := fun s _ _ h => by
  cases h
  exact errs_cons_ok _ _

theorem next? : Strict Rd.next? := by
  intro s a s' h
  unfold Rd.next? at h
  rcases hs : s.next with ⟨x, t⟩
  rw [hs] at h
  have := Stream.next_errs s
  rw [hs] at this
  rcases x with _ | (e | p)
  · cases h; exact this (by simp)
  · cases h
  · cases h; exact this (by simp)

theorem next : Strict Rd.next := by
  intro s a s' h
  unfold Rd.next at h
  rcases hs : s.next with ⟨x, t⟩
  rw [hs] at h
  have := Stream.next_errs s
  rw [hs] at this
  rcases x with _ | (e | p)
  · cases h
  · cases h
  · cases h; exact this (by simp)

end Strict

open Strict in
/-- Takes a reader apart; calls of other readers are left. -/
macro "strict" : tactic => `(tactic| repeat' first
  | assumption
  | exact Strict.pure
  | exact Strict.fail
  | exact Strict.lift
  | exact Strict.putBack
  | exact Strict.next
  | exact Strict.next?
  | refine Strict.bind ?_ fun _ => ?_
  | refine Strict.ite (fun _ => ?_) (fun _ => ?_)
  | split)

theorem readExtItems_strict (fuel : Nat) : Strict (readExtItems fuel) := by
  induction fuel with
  | zero => exact .fail
  | succ fuel ih => unfold readExtItems; strict

theorem extGroup_strict (name : Str) (off : Nat) : Strict (ExtGroup.read name off) := by
  unfold ExtGroup.read
  split
  · exact .withFuel fun k => .bind (readExtItems_strict _) fun _ => .pure
  · exact .fail

theorem readDouble_strict (c : Int) : Strict (XDataItem.readDouble c) := by
  unfold XDataItem.readDouble
  strict

theorem readPoint_strict (x : F64) (c : Int) : Strict (XDataItem.readPoint x c) := by
  unfold XDataItem.readPoint
  exact .bind (readDouble_strict _) fun _ => .bind (readDouble_strict _) fun _ => .pure

theorem readItem_strict {group : Rd (List XDataItem)} {p : CodePair} (hg : Strict group) :
    Strict (XDataItem.readItem group p) := by
  unfold XDataItem.readItem
  strict
  all_goals first | exact readPoint_strict _ _ | exact readDouble_strict _

theorem readGroup_strict (fuel : Nat) : Strict (XDataItem.readGroup fuel) := by
  induction fuel with
  | zero => exact .fail
  | succ fuel ih =>
    have hj : ∀ (p : CodePair) (close : Bool), Strict (if close = true then pure [] else do
        let i ← XDataItem.readItem (XDataItem.readGroup fuel) p
        let is ← XDataItem.readGroup fuel
        pure (i :: is)) := fun p close => .ite (fun _ => .pure) fun _ =>
      .bind (readItem_strict ih) fun _ => .bind ih fun _ => .pure
    unfold XDataItem.readGroup
    exact .bind .next fun p => .ite (fun _ => .fail) fun _ =>
      .ite (fun _ => .bind .lift (hj p)) fun _ => hj p false

theorem xReadItems_strict (fuel : Nat) : Strict (XData.readItems fuel) := by
  induction fuel with
  | zero => exact .fail
  | succ fuel ih =>
    unfold XData.readItems
    strict
    all_goals first | exact readItem_strict (readGroup_strict _) | exact readGroup_strict _

theorem entryApply_strict {ds : List Decl} (arms : List (Arm ds)) (p : CodePair) (e : Entry ds) :
    Strict (Entry.apply arms p e) := by
  unfold Entry.apply
  exact .ite (fun _ => .bind .lift fun _ => .bind (extGroup_strict _ _) fun _ => .pure)
    fun _ => .ite (fun _ => .bind .lift fun _ => .bind
      (.withFuel fun _ => .bind (xReadItems_strict _) fun _ => .pure) fun _ => .pure)
      fun _ => .bind .lift fun _ => .pure

theorem itemLoop_strict {σ : Type} (eof : Bool) {step : CodePair → σ → Rd σ}
    (hstep : ∀ p st, Strict (step p st)) (fuel : Nat) : ∀ st, Strict (itemLoop eof step fuel st) := by
  induction fuel with
  | zero => exact fun _ => .fail
  | succ fuel ih =>
    intro st
    unfold itemLoop
    strict
    · exact hstep _ _
    · exact ih _

theorem headerValues_strict (name : Str) (fuel : Nat) : ∀ r,
    Strict (headerValues Header.vars name fuel r) := by
  induction fuel with
  | zero => exact fun _ => .fail
  | succ fuel ih =>
    intro r
    unfold headerValues
    strict
    exact ih _

theorem headerLoop_strict (fuel : Nat) : ∀ r, Strict (headerLoop Header.vars fuel r) := by
  induction fuel with
  | zero => exact fun _ => .fail
  | succ fuel ih =>
    intro r
    unfold headerLoop
    strict
    · exact .withFuel fun _ => headerValues_strict _ _ _
    · exact ih _

theorem classReadAll_strict (v : Version) (fuel : Nat) : Strict (Class.readAll v fuel) := by
  induction fuel with
  | zero => exact .fail
  | succ fuel ih =>
    unfold Class.readAll
    strict
    exact .withFuel fun _ => itemLoop_strict _ (fun _ _ => .lift) _ _

theorem tableRead_strict (K : TableKind) (fuel : Nat) : Strict (K.read fuel) := by
  induction fuel with
  | zero => exact .fail
  | succ fuel ih =>
    unfold TableKind.read
    strict
    exact .withFuel fun _ => itemLoop_strict _ (fun _ _ => entryApply_strict _ _ _) _ _

theorem readChunks_strict (fuel : Nat) : Strict (Thumbnail.readChunks fuel) := by
  induction fuel with
  | zero => exact .fail
  | succ fuel ih =>
    unfold Thumbnail.readChunks
    strict

theorem thumbnail_strict {Img : Type} (codec : ImageCodec Img) : Strict (Thumbnail.read codec) := by
  unfold Thumbnail.read Thumbnail.readBytes
  strict
  exact .withFuel readChunks_strict

namespace Drawing

variable {Img : Type}

theorem expect_strict (mark : Str) : Strict (expect mark) := by
  unfold expect
  strict

theorem swallowTable_strict (fuel : Nat) : Strict (swallowTable fuel) := by
  induction fuel with
  | zero => exact .fail
  | succ fuel ih => unfold swallowTable; strict

theorem swallowSection_strict (fuel : Nat) : Strict (swallowSection fuel) := by
  induction fuel with
  | zero => exact .fail
  | succ fuel ih => unfold swallowSection; strict

theorem readTable_strict (d : Drawing Img) : Strict (readTable d) := by
  unfold readTable
  strict
  all_goals first
    | exact expect_strict _
    | exact .withFuel swallowTable_strict
    | exact .withFuel (tableRead_strict _)

theorem readItems_strict {type : Str} {callback : Drawing Img → Rd (Drawing Img)}
    (hc : ∀ d, Strict (callback d)) (fuel : Nat) : ∀ d, Strict (readItems type callback fuel d) := by
  induction fuel with
  | zero => exact fun _ => .fail
  | succ fuel ih =>
    intro d
    unfold readItems
    strict
    · exact hc _
    · exact ih _

/-- The sections in which nothing is passed over. -/
theorem readSection_strict (codec : ImageCodec Img) (h0 : Header) (name : Str)
    (h1 : name ≠ str!"BLOCKS") (h2 : name ≠ str!"ENTITIES") (h3 : name ≠ str!"OBJECTS")
    (d : Drawing Img) : Strict (readSection codec h0 name d) := by
  unfold readSection
  rw [if_neg h1, if_neg h2, if_neg h3]
  exact .ite (fun _ => .bind (.withFuel fun _ => headerLoop_strict _ _) fun _ => .pure) fun _ =>
    .ite (fun _ => .bind (.withFuel (classReadAll_strict _)) fun _ => .pure) fun _ =>
    .ite (fun _ => .withFuel fun _ => readItems_strict readTable_strict _ _) fun _ =>
    .ite (fun _ => .bind (thumbnail_strict codec) fun _ => .pure) fun _ =>
    .bind (.withFuel swallowSection_strict) fun _ => .pure

end Drawing

end Dxf
