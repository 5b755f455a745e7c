import Verif.Lemmas.Typed
import Verif.Model.Bytes

/-! C49: every pair of a saved file has the type its code asks for. -/

namespace Dxf

open Drawing

variable {Img : Type} {codec : ImageCodec Img}

private theorem oneTable_typed (d : Drawing Img) (t : TName)
    (h : ∀ x ∈ d.tables t, Typed (x.ext.flatMap ExtGroup.held)) : Typed (d.oneTable t) := by
  have hk : Typed (t.kind.pairs d.version d.writeHandles (d.tables t)) := by
    unfold TableKind.pairs
    refine .ite .nil (.append (.append ?_ (.flatMap fun x hx => ?_))
      (.cons (typed_str (by decide) _) .nil))
    · exact .cons (typed_str (by decide) _) (.cons (typed_str (by decide) _)
        (.cons (typed_str (by decide) _) (.cons (typed_i16 (by decide) _) .nil)))
    · exact tableItem_typed _ _ _ _ (tables_typed t _) (h x hx)
  unfold oneTable
  exact .ite hk .nil

/-- C49 for drawings whose sun studies have no hours: if the pairs the user put into extension
groups and XRecords have the types their codes ask for, so have all pairs of the saved file.  What
is missing: the hours of a sun study (`C49_violated`). -/
theorem C49_partial {d : Drawing Img} {ps : List CodePair} (h : d.codePairs codec = .ok ps)
    (hh : ∀ p ∈ d.held, p.WellTyped)
    (hs : .r13 ≤ d.version → ∀ o ∈ d.objects, o.kind = .sunStudy → o.extra.hours = []) :
    ∀ p ∈ ps, p.WellTyped := by
  have H : Typed d.held := hh
  unfold held at H
  obtain ⟨H, ho⟩ := List.forall_mem_append.mp H
  obtain ⟨H, he⟩ := List.forall_mem_append.mp H
  obtain ⟨ht, hb⟩ := List.forall_mem_append.mp H
  have sub {α : Type} {f : α → List CodePair} {l : List α} (h : Typed (l.flatMap f)) :
      ∀ x ∈ l, Typed (f x) := fun x hx p hp => h p (List.mem_flatMap.mpr ⟨x, hx, hp⟩)
  have ht : ∀ t, Typed ((d.tables t).flatMap fun x => x.ext.flatMap ExtGroup.held) := fun t =>
    sub ht t (by cases t <;> decide)
  have hcls : Typed d.classPairs := by
    unfold classPairs
    split
    · exact .nil
    · exact section_typed (.flatMap fun c _ => class_typed _ c)
  have htab : Typed d.tablePairs :=
    section_typed (.flatMap fun t _ => oneTable_typed d t (sub (ht t)))
  have hblk : Typed d.blockPairs := by
    unfold blockPairs
    split
    · exact .nil
    · refine section_typed (.flatMap fun b hm => ?_)
      have := List.forall_mem_append.mp (sub hb b hm)
      exact block_typed _ _ b this.1 (sub this.2)
  have hent : Typed d.entityPairs :=
    section_typed (.flatMap fun e hm => wholeEntity_typed _ _ e (sub he e hm))
  have hobj {os : List CodePair} (h : d.objectPairs = .ok os) : Typed os := by
    unfold objectPairs at h
    split at h
    · rename_i hv
      cases hm : d.objects.mapM (Object.pairs d.version) with
      | error e => rw [hm] at h; cases h
      | ok ls =>
        rw [hm] at h
        cases h
        refine section_typed fun p hp => ?_
        obtain ⟨l, hl, hp⟩ := List.mem_flatten.mp hp
        obtain ⟨o, ho', hop⟩ := mapM_ok hm l hl
        have := List.forall_mem_append.mp (sub ho o ho')
        exact object_typed hop this.1 this.2 (hs hv o ho') p hp
    · cases h
      exact .nil
  have hthumb {ts : List CodePair} (h : d.thumbnailPairs codec = .ok ts) : Typed ts := by
    unfold thumbnailPairs at h
    split at h
    · split at h
      · exact thumbnail_typed h
      · cases h
        exact .nil
    · cases h
      exact .nil
  unfold codePairs at h
  cases h1 : d.objectPairs with
  | error e => rw [h1] at h; cases h
  | ok os =>
    cases h2 : d.thumbnailPairs codec with
    | error e => rw [h1] at h; simp only [bind, Except.bind] at h; rw [h2] at h; cases h
    | ok ts =>
      rw [h1] at h
      simp only [bind, Except.bind] at h
      rw [h2] at h
      cases h
      refine Typed.append (.append (.append (.append (.append (.append (.append ?_ hcls) htab) hblk)
        hent) (hobj h1)) (hthumb h2)) (.cons (typed_str (by decide) _) .nil)
      exact section_typed (header_typed _)

/-- A drawing of R2013 with one sun study with the given hours and an extension group. -/
def sunDrawing (hours : List I32) : Drawing Unit where
  header := Rec.set (Rec.dflt Header.decls) 0 (.r2013 : Version)
  classes := []
  tables := fun
    | .layer => [TName.setHandle .layer (TName.named .layer str!"WALLS") 5#64]
    | _ => []
  blocks := []
  entities := [⟨⟨.line, 0, ⟨Rec.dflt _, [⟨str!"APP", [.pair (.newI16 70 3#16)]⟩], []⟩⟩, Extra.dflt⟩]
  objects := [⟨.sunStudy, Entry.dflt _, { hours := hours }⟩]
  thumbnail := none

/-- The hypotheses of `C49_partial` hold for a drawing with a sun study without hours. -/
example (codec : ImageCodec Unit) : (∃ ps, (sunDrawing []).codePairs codec = .ok ps) ∧
    (sunDrawing []).held = [.newI16 70 3#16] ∧ (∀ p ∈ (sunDrawing []).held, p.WellTyped) ∧
    ∀ o ∈ (sunDrawing []).objects, o.kind = .sunStudy → o.extra.hours = [] := by
  refine ⟨⟨_, rfl⟩, rfl, fun p hp => ?_, fun o ho _ => ?_⟩
  · rw [show (sunDrawing []).held = [.newI16 70 3#16] from rfl] at hp
    rw [List.mem_singleton.mp hp]
    decide
  · rw [List.mem_singleton.mp (show o ∈ [_] from ho)]

/-- C49 is violated: for every sun study that has hours and is written, a pair is written whose value
has not the type its code asks for.  Hours are written as numbers of two bytes, but with the code of
a Boolean value, src/object.rs:1614-1617. -/
theorem C49_violated {v : Version} {o : Object} {ps : List CodePair} (h : o.pairs v = .ok ps)
    (hk : o.kind = .sunStudy) (hv : o.kind.supported v = true) (hh : o.extra.hours ≠ []) :
    ∃ p ∈ ps, ¬ p.WellTyped := by
  obtain ⟨k, e, x⟩ := o
  cases hk
  unfold Object.pairs at h
  rw [if_pos hv] at h
  cases ht : Object.tail ⟨.sunStudy, e, x⟩ with
  | error e => rw [ht] at h; cases h
  | ok tail =>
    rw [ht] at h
    cases h
    cases hx : x.hours with
    | nil => exact absurd hx hh
    | cons a l =>
      refine ⟨.newI16 290 (a.setWidth 16), ?_, ?_⟩
      case refine_2 =>
        exact (show ¬ ExpectedType.new 290 = some .short by decide)
      refine List.mem_append_left _ (List.mem_append_left _ ?_)
      unfold Object.front
      refine List.mem_append_left _ (List.mem_append_right _ ?_)
      unfold OName.mid2
      refine List.mem_cons_of_mem _ ?_
      dsimp only
      rw [hx]
      exact List.mem_cons_self

/-- Such an object is written. -/
example : ∃ ps,
    Object.pairs .r2013 ⟨.sunStudy, Entry.dflt _, { hours := [5#32] }⟩ = .ok ps ∧
    OName.supported .sunStudy .r2013 = true := ⟨_, rfl, rfl⟩

/-- An image library that knows no images. -/
private def noImages : ImageCodec Unit := ⟨fun _ => .error .imageError, fun _ => .error .imageError⟩

/-- What becomes of a drawing that is saved as a binary file and loaded: the number of its
objects. -/
private def reloaded (d : Drawing Unit) : Except DxfErr (Option Nat) := do
  let file ← saveBinary noImages d
  match loadBytes noImages .win1252 (Rec.dflt _) [] file with
  | .ok d => return some d.objects.length
  | .error _ => return none

private theorem reloaded_none {d : Drawing Unit}
    (h : (match reloaded d with
      | .ok none => true
      | _ => false) = true) : ∃ file e, saveBinary noImages d = .ok file ∧
      loadBytes noImages .win1252 (Rec.dflt _) [] file = .error e := by
  unfold reloaded at h
  cases hf : saveBinary noImages d with
  | error e => rw [hf] at h; cases h
  | ok file =>
    rw [hf] at h
    simp only [bind, Except.bind] at h
    cases hl : loadBytes noImages .win1252 (Rec.dflt _) [] file with
    | error e => exact ⟨file, e, rfl, hl⟩
    | ok d => rw [hl] at h; cases h

private theorem reloaded_some {d : Drawing Unit} {n : Nat}
    (h : (match reloaded d with
      | .ok (some m) => decide (m = n)
      | _ => false) = true) : ∃ file d', saveBinary noImages d = .ok file ∧
      loadBytes noImages .win1252 (Rec.dflt _) [] file = .ok d' ∧ d'.objects.length = n := by
  unfold reloaded at h
  cases hf : saveBinary noImages d with
  | error e => rw [hf] at h; cases h
  | ok file =>
    rw [hf] at h
    simp only [bind, Except.bind] at h
    cases hl : loadBytes noImages .win1252 (Rec.dflt _) [] file with
    | error e => rw [hl] at h; cases h
    | ok d => rw [hl] at h; exact ⟨file, d, rfl, hl, of_decide_eq_true h⟩

/-- In a binary file this is fatal: the reader takes one byte for the hour, so that everything after
it is out of step, and loading the file fails.  Without the hour, the file can be loaded. -/
theorem C49_unreadable : ∃ codec : ImageCodec Unit,
    (∃ file e, saveBinary codec (sunDrawing [5#32]) = .ok file ∧
      loadBytes codec .win1252 (Rec.dflt _) [] file = .error e) ∧
    (∃ file d, saveBinary codec (sunDrawing []) = .ok file ∧
      loadBytes codec .win1252 (Rec.dflt _) [] file = .ok d ∧ d.objects.length = 1) :=
  ⟨noImages, reloaded_none (by decide +kernel), reloaded_some (by decide +kernel)⟩

end Dxf
