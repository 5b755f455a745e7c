import Verif.Lemmas.Tables
import Verif.Spec.Class

/-! Reading the pairs written for classes. -/

namespace Dxf

/-- A loop whose steps only look at the pair. -/
theorem runs_pure {σ : Type} {eof : Bool} (f : CodePair → σ → Except DxfErr σ)
    (ps : List CodePair) (hc : ∀ p ∈ ps, p.code ≠ 0 ∧ p.code ≠ 999) (st st' : σ)
    (h : ps.foldlM (fun st p => f p st) st = .ok st') (rest : Stream) :
    Runs eof (fun p st => Rd.lift (f p st)) st ps st' rest := by
  induction ps generalizing st with
  | nil =>
    simp only [List.foldlM_nil] at h
    cases h
    exact Runs.nil _ _
  | cons p ps ih =>
    rw [List.foldlM_cons] at h
    cases h1 : f p st with
    | error e => rw [h1] at h; cases h
    | ok st1 =>
      rw [h1] at h
      obtain ⟨h0, h9⟩ := hc p List.mem_cons_self
      refine Runs.trans (a := [p]) (b := ps) (Runs.one h0 h9 ?_)
        (ih (fun q hq => hc q (List.mem_cons_of_mem _ hq)) st1 h)
      simp [h1, Rd.lift]

namespace Class

/-- The type string in front of a class. -/
def mark (v : Version) (c : Class) : Str := if .r14 ≤ v then str!"CLASS" else c.recordName

/-- The pairs of a class after the first. -/
def tail (v : Version) (c : Class) : List CodePair :=
  (if .r14 ≤ v then
    [.newStr 1 c.recordName, .newStr 2 c.className,
      .newStr 3 c.applicationName, .newI32 90 c.proxyCapabilityFlags] ++
    (if .r2004 ≤ v then [.newI32 91 (c.instanceCount.truncate 32)] else [])
  else
    [.newStr 1 c.className, .newStr 2 c.applicationName, .newI32 90 c.versionNumber]) ++
  [.newI16 280 (bif !c.wasClassLoadedWithFile then 1#16 else 0#16),
    .newI16 281 (bif c.isEntity then 1#16 else 0#16)]

theorem pairs_eq (v : Version) (c : Class) : c.pairs v = .newStr 0 (c.mark v) :: c.tail v := by
  unfold pairs mark tail
  split <;> simp

theorem tail_codes (v : Version) (c : Class) : ∀ p ∈ c.tail v, p.code ≠ 0 ∧ p.code ≠ 999 := by
  unfold tail
  split
  · split <;> simp [CodePair.newStr, CodePair.newI32, CodePair.newI16]
  · simp [CodePair.newStr, CodePair.newI32, CodePair.newI16]

/-- A class as it is read back. -/
def back (v : Version) (c : Class) : Class :=
  { c.visible v with
    instanceCount := if .r2004 ≤ v then (c.instanceCount.truncate 32).signExtend 64 else 0#64 }

theorem le_trans {a b c : Version} (h : a ≤ b) (h' : b ≤ c) : a ≤ c := Nat.le_trans h h'

theorem old_iff (v : Version) : v ≤ .r13 ↔ ¬ .r14 ≤ v := by
  cases v <;> decide

theorem tail_fold (v : Version) (c : Class) :
    (c.tail v).foldlM (fun c p => apply v p c)
      (if v ≤ .r13 then { dflt with recordName := c.mark v } else dflt) = .ok (c.back v) := by
  obtain ⟨rn, cn, an, vn, pf, ic, wl, ie⟩ := c
  unfold tail mark back visible dflt
  by_cases h4 : Version.r2004 ≤ v
  · have h14 : Version.r14 ≤ v := le_trans (by decide) h4
    have h13 : ¬ v ≤ .r13 := fun h => (old_iff v).mp h h14
    cases wl <;> cases ie <;>
    simp [h4, h14, h13, apply, CodePair.newStr, CodePair.newI32, CodePair.newI16, Except.map,
      CodePair.assertString, CodePair.assertI32, CodePair.assertI16, bind, Except.bind, pure,
      Except.pure]
  · by_cases h14 : Version.r14 ≤ v
    · have h13 : ¬ v ≤ .r13 := fun h => (old_iff v).mp h h14
      cases wl <;> cases ie <;>
      simp [h4, h14, h13, apply, CodePair.newStr, CodePair.newI32, CodePair.newI16, Except.map,
        CodePair.assertString, CodePair.assertI32, CodePair.assertI16, bind, Except.bind, pure,
        Except.pure]
    · have h13 : v ≤ .r13 := (old_iff v).mpr h14
      cases wl <;> cases ie <;>
      simp [h4, h14, h13, apply, CodePair.newStr, CodePair.newI32, CodePair.newI16, Except.map,
        CodePair.assertString, CodePair.assertI32, CodePair.assertI16, bind, Except.bind, pure,
        Except.pure]

theorem read_written (v : Version) (c : Class) (rest : Stream) (hr : StartsZero rest) :
    Class.read v (c.mark v) (toStream (c.tail v) ++ rest) = (.ok (c.back v), rest) := by
  obtain ⟨q, s, rfl, hq⟩ := hr
  unfold Class.read
  rw [Rd.run_withFuel]
  exact Runs.done hq (runs_pure _ _ (c.tail_codes v) _ _ (c.tail_fold v) _) _ (by simp)

theorem readAll_written (v : Version) (cs : List Class)
    (hn : ∀ c ∈ cs, v ≤ .r13 → c.recordName ≠ str!"ENDSEC") (rest : Stream) (fuel : Nat)
    (hf : (cs.flatMap (pairs v)).length < fuel) :
    readAll v fuel (toStream (cs.flatMap (pairs v) ++ [.newStr 0 str!"ENDSEC"]) ++ rest) =
      (.ok (cs.map (back v)), toStream [.newStr 0 str!"ENDSEC"] ++ rest) := by
  induction cs generalizing fuel with
  | nil =>
    obtain ⟨f, rfl⟩ : ∃ f, fuel = f + 1 := ⟨fuel - 1, by omega⟩
    rfl
  | cons c cs ih =>
    obtain ⟨f, rfl⟩ : ∃ f, fuel = f + 1 := ⟨fuel - 1, by omega⟩
    rw [List.flatMap_cons, List.length_append, pairs_eq, List.length_cons] at hf
    have hih := ih (fun c hc => hn c (List.mem_cons_of_mem _ hc)) f (by omega)
    have hz : StartsZero (toStream (cs.flatMap (pairs v) ++ [.newStr 0 str!"ENDSEC"]) ++ rest) := by
      cases cs with
      | nil => exact ⟨_, _, rfl, rfl⟩
      | cons d ds =>
        rw [List.flatMap_cons, pairs_eq]
        exact ⟨_, _, rfl, rfl⟩
    have hm : c.mark v ≠ str!"ENDSEC" := by
      unfold mark
      split
      · decide
      · rename_i h
        exact hn c List.mem_cons_self ((old_iff v).mpr h)
    have hread := read_written v c _ hz
    have hs : toStream ((c :: cs).flatMap (pairs v) ++ [.newStr 0 str!"ENDSEC"]) ++ rest =
        some (.ok (.newStr 0 (c.mark v))) :: (toStream (c.tail v) ++
          (toStream (cs.flatMap (pairs v) ++ [.newStr 0 str!"ENDSEC"]) ++ rest)) := by
      rw [List.flatMap_cons, pairs_eq]
      simp [toStream_append, toStream_cons]
    rw [hs, readAll, Rd.bind_ok (Rd.next_cons (by simp [CodePair.newStr]) _)]
    change (if (0 : Int) = 0 then (Rd.lift (.ok (c.mark v)) >>= fun s =>
      if s = str!"ENDSEC" then (Rd.putBack (.newStr 0 (c.mark v)) >>= fun _ => pure [])
      else (Class.read v s >>= fun c => readAll v f >>= fun cs => pure (c :: cs)))
      else readAll v f) _ = _
    rw [if_pos rfl, Rd.bind_ok (m := Rd.lift (.ok (c.mark v))) (a := c.mark v) rfl]
    rw [if_neg hm, Rd.bind_ok hread, Rd.bind_ok hih]
    rfl

end Class

end Dxf
