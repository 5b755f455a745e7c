import Verif.Model.Styles
import Verif.Lemmas.Corners
import Verif.Lemmas.LayerLook

/-! Text styles and line types, read (C81). -/

namespace Dxf

/-- The lengths that are read are those of the pairs, in their order. -/
theorem dashes_fold {ps : List CodePair} {zs : List F64}
    (hp : (withCode 49 ps).map CodePair.value = zs.map .double) {r r' : Rec Tables.lineTypeDecls}
    (h : foldPairs Tables.lineTypeArms r ps = .ok r') :
    (r' 7 : List F64) = List.append (r 7) zs := by
  induction ps generalizing r zs with
  | nil =>
    cases h
    cases zs with
    | nil => exact (List.append_nil _).symm
    | cons z zs => cases hp
  | cons p ps ih =>
    obtain ⟨r1, h1, h2⟩ := fold_cons h
    by_cases hc : p.code = 49
    · have e : withCode 49 (p :: ps) = p :: withCode 49 ps := by
        unfold withCode
        rw [List.filter_cons, if_pos (decide_eq_true hc)]
      rw [e] at hp
      cases zs with
      | nil => cases hp
      | cons z zs =>
        rw [List.map_cons, List.map_cons, List.cons.injEq] at hp
        have h1' : Act.apply r p (.on 7 (.push .f64)) = .ok r1 := by
          unfold applyPair at h1
          rw [hc] at h1
          exact h1
        obtain ⟨x, hx, rfl⟩ := on_apply h1'
        have ha : p.assertF64 = .ok z := by rw [CodePair.assertF64, hp.1]
        have hx : x = List.append (r 7) [z] := by
          simp only [FRead.apply, RConv.read, ha, Except.map] at hx
          cases hx
          rfl
        refine (ih hp.2 h2).trans ?_
        have h3 : ((r.set 7 x) 7 : List F64) = List.append (r 7) [z] := (Rec.set_self (i := 7) r x).trans hx
        exact (congrArg (fun l => List.append l zs) h3).trans (List.append_assoc _ [z] zs)
    · have e : withCode 49 (p :: ps) = withCode 49 ps := by
        unfold withCode
        rw [List.filter_cons, if_neg (by simpa using hc)]
      rw [e] at hp
      refine (ih hp h2).trans ?_
      have h3 : (r1 7 : List F64) = r 7 :=
        arm_other (cs := [49]) (i := 7) (by decide +kernel) (by simpa using hc) h1
      exact congrArg (fun l => List.append l zs) h3

theorem plain_of {ps : List CodePair} (hf : ∀ p ∈ ps, FieldCode p.code) :
    ∀ p ∈ ps, plainCode p.code = true := fun p hp => by
  have := hf p hp
  simp only [FieldCode] at this
  simp only [plainCode, ne_eq, Bool.and_eq_true, decide_eq_true_eq]
  refine ⟨⟨⟨?_, ?_⟩, ?_⟩, ?_⟩ <;> omega

end Dxf
