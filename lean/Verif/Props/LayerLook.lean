import Verif.Lemmas.LayerLook

/-! Layers are described in files as the DXF reference says, but for their flags (C79). -/

namespace Dxf

/-- C79: a layer is written as the DXF reference says: each code is there once, with the value.
(Extension groups may contain any codes; colors below 1 are no colors of layers.) -/
theorem C79_written {x : TableItem Tables.layer} (he : x.ext = []) (hc : 0 < (LayerLook.of x).color.toInt)
    (v : Version) (wh : Bool) : ∀ p ∈ (LayerLook.of x).codes,
      (Tables.layer.itemPairs v wh x).filter (fun q => decide (q.code = p.code)) = [p] := by
  intro p hp
  simp only [LayerLook.codes, List.mem_cons, List.not_mem_nil, or_false] at hp
  obtain rfl | rfl | rfl := hp
  · exact (withCode_item (K := Tables.layer) (c := 2) v wh he (by decide) (by decide)).trans rfl
  · exact (withCode_item (K := Tables.layer) (c := 6) v wh he (by decide) (by decide)).trans rfl
  · refine (withCode_item (K := Tables.layer) (c := 62) v wh he (by decide) (by decide)).trans ?_
    change [CodePair.newI16 62 (Tables.layerColorValue x.fields)] = _
    refine congrArg (fun n => [CodePair.newI16 62 n]) ?_
    have key : ∀ (raw : I16) (on : Bool), 0 < raw.toInt →
        (bif on then (if raw.toInt < 0 then -raw else raw) else -(if raw.toInt < 0 then -raw else raw)) =
          if on then raw else -raw := by
      intro raw on h
      rw [if_neg (by omega)]
      cases on <;> rfl
    exact key _ _ hc

/-- C79: a layer that is read has what its pairs say by the DXF reference, in whatever order they stand
and whatever other fields there are. -/
theorem C79_read {l : LayerLook} (hl : 0 < l.color.toInt) {op q : CodePair} (hop : op.code = 0)
    (hv : op.value = .str str!"LAYER") {ps : List CodePair} (hf : ∀ p ∈ ps, FieldCode p.code)
    (hps : ∀ p ∈ l.codes, (ps.filter fun q => decide (q.code = p.code)).map CodePair.value = [p.value])
    (hq : q.code = 0) {c : List CodePair} {fuel : Nat} {xs : List (TableItem Tables.layer)} {t : Stream}
    (hx : Tables.layer.read fuel (toStream (op :: (ps ++ q :: c))) = (.ok xs, t)) :
    ∃ x rest, xs = x :: rest ∧ LayerLook.of x = l := by
  have hc : ∀ p ∈ ps, plainCode p.code = true := fun p hp => by
    have := hf p hp
    simp only [FieldCode] at this
    simp only [plainCode, ne_eq, Bool.and_eq_true, decide_eq_true_eq]
    refine ⟨⟨⟨?_, ?_⟩, ?_⟩, ?_⟩ <;> omega
  rw [toStream_cons, toStream_append, toStream_cons] at hx
  obtain ⟨x, rest, rfl, hr⟩ := table_fold (K := Tables.layer) hop hv hc hq hx
  refine ⟨x, rest, rfl, ?_⟩
  obtain ⟨name, lt, color, on⟩ := l
  have h1 : x.fields 0 = name := fold_lens (c := 2) (get := fun r : Rec Tables.layerDecls => r 0)
    (fun r r' p hp h => layer_other (by decide) hp h)
    (fun r r' p hp hz h => by
      have h' : Act.apply r p (.on 0 (.set .str)) = .ok r' := by
        unfold applyPair at h
        rw [hp] at h
        exact h
      obtain ⟨y, hy, rfl⟩ := on_apply h'
      exact (Rec.set_self (i := 0) r y).trans (Option.some.inj
        (str_own (t := .str) (f := .set .str) rfl hz hy))) (hps (.newStr 2 name) (by simp [LayerLook.codes])) hr
  have h2 : x.fields 4 = lt := fold_lens (c := 6) (get := fun r : Rec Tables.layerDecls => r 4)
    (fun r r' p hp h => layer_other (by decide) hp h)
    (fun r r' p hp hz h => by
      have h' : Act.apply r p (.on 4 (.set .str)) = .ok r' := by
        unfold applyPair at h
        rw [hp] at h
        exact h
      obtain ⟨y, hy, rfl⟩ := on_apply h'
      exact (Rec.set_self (i := 4) r y).trans (Option.some.inj
        (str_own (t := .str) (f := .set .str) rfl hz hy))) (hps (.newStr 6 lt) (by simp [LayerLook.codes])) hr
  have h3 : ((x.fields 3 : I16), (x.fields 9 : Bool)) = (color, on) := fold_lens (c := 62)
    (get := fun r : Rec Tables.layerDecls => ((r 3 : I16), (r 9 : Bool)))
    (fun r r' p hp h => by
      have a := layer_other (i := 3) (by decide) hp h
      have b := layer_other (i := 9) (by decide) hp h
      exact Prod.ext a b)
    (fun r r' p hp hz h => by
      have h' : Tables.readLayerColor.apply r p = .ok r' := by
        unfold applyPair at h
        rw [hp] at h
        exact h
      obtain ⟨n, on', c', hn, hrd, rfl⟩ := layerColor_apply h'
      have hn : n = if on then color else -color := by
        unfold CodePair.assertI16 at hn
        rw [hz] at hn
        cases hn
        rfl
      rw [hn, color_back hl] at hrd
      cases hrd
      exact Prod.ext (Rec.set_self (i := 3) (r.set 9 on) color) ((Rec.set_ne (i := 3) (j := 9) (r.set 9 on) color
        (by decide)).trans (Rec.set_self (i := 9) r on))) (hps (.newI16 62 (if on then color else -color)) (by simp [LayerLook.codes])) hr
  have h4 := (Prod.mk.inj h3).1
  have h5 := (Prod.mk.inj h3).2
  change LayerLook.mk (x.fields 0) (x.fields 4) (x.fields 3) (x.fields 9) = _
  rw [h1, h2, h4, h5]

/-- A layer in a file that is off. -/
example : ∃ xs t, Tables.layer.read 9 (toStream (.newStr 0 str!"LAYER" :: ([.newI16 62 (-7#16),
      .newStr 6 str!"b", .newI16 70 1#16, .newStr 2 str!"a"] ++ .newStr 0 str!"ENDTAB" :: []))) =
        (.ok xs, t) ∧ ∃ x rest, xs = x :: rest ∧ LayerLook.of x = ⟨str!"a", str!"b", 7#16, false⟩ := by
  refine ⟨_, _, rfl, ?_⟩
  refine C79_read (l := ⟨str!"a", str!"b", 7#16, false⟩) (by decide) (op := .newStr 0 str!"LAYER")
    (q := .newStr 0 str!"ENDTAB") (c := []) (fuel := 9) (ps := [.newI16 62 (-7#16),
      .newStr 6 str!"b", .newI16 70 1#16, .newStr 2 str!"a"]) rfl rfl ?_ ?_ rfl rfl
  · simp [FieldCode, CodePair.newI16, CodePair.newStr]
  · repeat refine List.forall_mem_cons.mpr ⟨rfl, ?_⟩
    exact List.forall_mem_nil _

example : 0 < (LayerLook.of (Entry.dflt Tables.layerDecls : TableItem Tables.layer)).color.toInt := by
  decide

/-- The flags of layers are always written as 0. -/
theorem C79_flags {x : TableItem Tables.layer} (he : x.ext = []) (v : Version) (wh : Bool) :
    (Tables.layer.itemPairs v wh x).filter (fun q => decide (q.code = 70)) = [.newI16 70 0#16] :=
  (withCode_item (K := Tables.layer) (c := 70) v wh he (by decide) (by decide)).trans rfl

/-- C79 does not hold for the flags: layers that are frozen or locked in a file (or have any other
flags) are read as if they had none, and are written without. -/
theorem C79_violated (flags : I16) : ∃ x t,
    Tables.layer.read 2 (toStream [.newStr 0 str!"LAYER", .newStr 2 str!"a", .newI16 70 flags,
      .newI16 62 7#16, .newStr 6 str!"b", .newStr 0 str!"ENDTAB"]) = (.ok [x], t) ∧
    Tables.layer.read 2 (toStream [.newStr 0 str!"LAYER", .newStr 2 str!"a", .newI16 62 7#16,
      .newStr 6 str!"b", .newStr 0 str!"ENDTAB"]) = (.ok [x], t) ∧
    (∀ v wh, (Tables.layer.itemPairs v wh x).filter (fun q => decide (q.code = 70)) =
      [.newI16 70 0#16]) ∧ (flags = frozenFlag ∨ flags = lockedFlag → flags ≠ 0#16) := by
  refine ⟨_, _, rfl, rfl, fun v wh => C79_flags rfl v wh, ?_⟩
  rintro (rfl | rfl) <;> decide

end Dxf
