import Verif.Model.Entry
import Verif.Lemmas.ExtData
import Verif.Lemmas.XData
import Verif.Lemmas.Record

/-! Reading the pairs written for an entry. -/

namespace Dxf

/-- In front of `rest`, the loop reads the pairs `ps` and goes from `st` to `st'`. -/
def Runs {σ : Type} (eof : Bool) (step : CodePair → σ → Rd σ) (st : σ) (ps : List CodePair) (st' : σ)
    (rest : Stream) : Prop :=
  ∀ fuel, ps.length + rest.length < fuel → ∃ fuel', rest.length < fuel' ∧
    itemLoop eof step fuel st (toStream ps ++ rest) = itemLoop eof step fuel' st' rest

namespace Runs

variable {σ : Type} {eof : Bool} {step : CodePair → σ → Rd σ}

theorem nil (st : σ) (rest : Stream) : Runs eof step st [] st rest := by
  intro fuel h
  exact ⟨fuel, by simpa using h, rfl⟩

theorem trans {st st1 st2 : σ} {a b : List CodePair} {rest : Stream}
    (h1 : Runs eof step st a st1 (toStream b ++ rest)) (h2 : Runs eof step st1 b st2 rest) :
    Runs eof step st (a ++ b) st2 rest := by
  intro fuel h
  obtain ⟨f1, hf1, e1⟩ := h1 fuel (by simp at h ⊢; omega)
  obtain ⟨f2, hf2, e2⟩ := h2 f1 (by simpa using hf1)
  refine ⟨f2, hf2, ?_⟩
  rw [toStream_append, List.append_assoc, e1, e2]

/-- One call of `step` that reads the pair `p` and the pairs `ps` after it. -/
theorem one {st st' : σ} {p : CodePair} {ps : List CodePair} {rest : Stream} (h0 : p.code ≠ 0)
    (h9 : p.code ≠ 999) (h : step p st (toStream ps ++ rest) = (.ok st', rest)) :
    Runs eof step st (p :: ps) st' rest := by
  intro fuel hf
  obtain ⟨f, rfl⟩ : ∃ f, fuel = f + 1 := ⟨fuel - 1, by omega⟩
  refine ⟨f, by simp at hf; omega, ?_⟩
  rw [itemLoop]
  simp only [toStream_cons, List.cons_append]
  rw [Rd.bind_ok (Rd.next?_cons h9 _)]
  change (if p.code = 0 then (Rd.putBack p >>= fun _ => pure st)
    else (step p st >>= fun st' => itemLoop eof step f st')) (toStream ps ++ rest) = _
  rw [if_neg h0, Rd.bind_ok h]

/-- The loop ends at a pair with code 0. -/
theorem done {st st' : σ} {ps : List CodePair} {q : CodePair} {s : Stream} (hq : q.code = 0)
    (h : Runs eof step st ps st' (some (.ok q) :: s)) (fuel : Nat)
    (hf : ps.length + s.length + 1 < fuel) :
    itemLoop eof step fuel st (toStream ps ++ some (.ok q) :: s) = (.ok st', some (.ok q) :: s) := by
  obtain ⟨f, hf', e⟩ := h fuel (by simp; omega)
  obtain ⟨f, rfl⟩ : ∃ f', f = f' + 1 := ⟨f - 1, by omega⟩
  rw [e, itemLoop, Rd.bind_ok (Rd.next?_cons (by omega) _)]
  change (if q.code = 0 then (Rd.putBack q >>= fun _ => pure st')
    else (step q st' >>= fun st' => itemLoop eof step f st')) s = _
  rw [if_pos hq]
  rfl

end Runs

variable {ds : List Decl} {eof : Bool}

/-- Codes that the loop does not treat specially. -/
def plainCode (c : Int) : Bool := c ≠ 0 && c ≠ 102 && c ≠ 1001 && c ≠ 999

theorem runs_fold (arms : List (Arm ds)) (ps : List CodePair)
    (hc : ∀ p ∈ ps, plainCode p.code = true) (it : Entry ds) {r : Rec ds}
    (h : foldPairs arms it.fields ps = .ok r) (rest : Stream) :
    Runs eof (Entry.apply arms) it ps { it with fields := r } rest := by
  induction ps generalizing it with
  | nil =>
    simp only [foldPairs, Except.ok.injEq] at h
    subst h
    exact Runs.nil _ _
  | cons p ps ih =>
    rw [foldPairs] at h
    cases h1 : applyPair arms it.fields p with
    | error e => rw [h1] at h; cases h
    | ok r1 =>
      rw [h1] at h
      have hp := hc p List.mem_cons_self
      simp only [plainCode, ne_eq, Bool.and_eq_true, decide_eq_true_eq, decide_not,
        Bool.not_eq_true', decide_eq_false_iff_not] at hp
      have := ih (fun q hq => hc q (List.mem_cons_of_mem _ hq)) { it with fields := r1 } h
      refine Runs.trans (a := [p]) (b := ps) (Runs.one hp.1.1.1 hp.2 ?_) this
      simp [Entry.apply, hp, Rd.run_bind, h1]

theorem runs_group (arms : List (Arm ds)) (g : ExtGroup) (hg : ExtItem.PlainList g.items)
    (it : Entry ds) (rest : Stream) :
    Runs eof (Entry.apply arms) it g.pairs { it with ext := it.ext ++ ExtGroup.kept [g] } rest := by
  unfold ExtGroup.pairs
  by_cases hne : g.items = []
  · simp only [hne, List.isEmpty_nil, if_true, ExtGroup.kept]
    simpa [hne] using Runs.nil it rest
  · have hne' : g.items.isEmpty = false := by simpa using hne
    rw [if_neg (by simp [hne'])]
    refine Runs.one (by simp [CodePair.newStr]) (by simp [CodePair.newStr]) ?_
    have := ExtGroup.read_written g hne hg 0 rest
    simp only [CodePair.newStr] at this
    simp [Entry.apply, CodePair.newStr, Rd.run_bind, CodePair.assertString, this, ExtGroup.kept, hne']

theorem ExtGroup.kept_cons (g : ExtGroup) (gs : List ExtGroup) :
    ExtGroup.kept (g :: gs) = ExtGroup.kept [g] ++ ExtGroup.kept gs := by
  unfold ExtGroup.kept
  rw [← List.map_append, ← List.filter_append]
  rfl

theorem runs_groups (arms : List (Arm ds)) (gs : List ExtGroup) (hg : ExtGroup.AllPlain gs)
    (it : Entry ds) (rest : Stream) :
    Runs eof (Entry.apply arms) it (gs.flatMap ExtGroup.pairs)
      { it with ext := it.ext ++ ExtGroup.kept gs } rest := by
  induction gs generalizing it with
  | nil => simpa [ExtGroup.kept] using Runs.nil it rest
  | cons g gs ih =>
    have h1 := runs_group (eof := eof) arms g (hg g List.mem_cons_self) it
      (toStream (gs.flatMap ExtGroup.pairs) ++ rest)
    have h2 := ih (fun x hx => hg x (List.mem_cons_of_mem _ hx))
      { it with ext := it.ext ++ ExtGroup.kept [g] }
    rw [List.flatMap_cons, ExtGroup.kept_cons, ← List.append_assoc]
    exact Runs.trans h1 h2

theorem runs_xdata (arms : List (Arm ds)) (xs : List XData) (v : Version) (hv : .r2000 ≤ v)
    (it : Entry ds) (rest : Stream) (hr : XData.Stops rest) :
    Runs eof (Entry.apply arms) it (xs.flatMap fun x => x.pairs v)
      { it with xdata := it.xdata ++ xs } rest := by
  induction xs generalizing it with
  | nil => simpa using Runs.nil it rest
  | cons x xs ih =>
    have hx : x.pairs v = .newStr 1001 x.name :: XDataItem.pairsList x.items := by
      unfold XData.pairs
      rw [if_pos hv]
    have hstop : XData.Stops (toStream (xs.flatMap fun x => x.pairs v) ++ rest) := by
      cases xs with
      | nil => simpa using hr
      | cons y ys =>
        refine .inr ⟨.newStr 1001 y.name, toStream (XDataItem.pairsList y.items) ++
          (toStream (ys.flatMap fun x => x.pairs v) ++ rest), ?_, .inl rfl, by simp [CodePair.newStr]⟩
        have hy : y.pairs v = .newStr 1001 y.name :: XDataItem.pairsList y.items := by
          unfold XData.pairs
          rw [if_pos hv]
        simp [hy]
    have h1 : Runs eof (Entry.apply arms) it (x.pairs v) { it with xdata := it.xdata ++ [x] }
        (toStream (xs.flatMap fun x => x.pairs v) ++ rest) := by
      rw [hx]
      refine Runs.one (by simp [CodePair.newStr]) (by simp [CodePair.newStr]) ?_
      have := XData.read_written x _ hstop
      simp [Entry.apply, CodePair.newStr, Rd.run_bind, CodePair.assertString, this]
    have h2 := ih { it with xdata := it.xdata ++ [x] }
    rw [List.flatMap_cons, show it.xdata ++ x :: xs = it.xdata ++ [x] ++ xs by simp]
    exact Runs.trans h1 h2

theorem xdata_old (xs : List XData) (v : Version) (hv : ¬ .r2000 ≤ v) :
    (xs.flatMap fun x => x.pairs v) = [] := by
  induction xs with
  | nil => rfl
  | cons x xs ih =>
    rw [List.flatMap_cons, ih]
    unfold XData.pairs
    rw [if_neg hv]
    rfl

end Dxf
