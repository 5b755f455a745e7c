import Verif.Lemmas.Placed

/-! Texts and block references are described in files as the DXF reference says (C78). -/

namespace Dxf

set_option maxRecDepth 20000 in
/-- C78: a text or a block reference without attributes is written with its type and with the codes of
the DXF reference; a code that may be left out is left out just when the value equals (as numbers are
compared) what it means to leave it out.  (Extension groups may contain any codes.) -/
theorem C78_written {e : Entity} {x : Placed} (h : Placed.of e.toFlat = some x) (he : e.entry.ext = [])
    (ha : e.extra.atts = []) (v : Version) (wh : Bool) :
    (e.pairs v wh).head? = some (.newStr 0 x.name) ∧
    (∀ p ∈ x.needed, (e.pairs v wh).filter (fun q => decide (q.code = p.code)) = [p]) ∧
    ∀ o ∈ x.optional, (e.pairs v wh).filter (fun q => decide (q.code = o.1)) =
      if F64.rustEq o.2.1 o.2.2 then [] else [.newF64 o.1 o.2.1] := by
  obtain ⟨⟨k, n, y⟩, ⟨verts, atts, seqend, mtext⟩⟩ := e
  cases ha
  cases k
  case text =>
    cases h
    refine ⟨pairs_head rfl _ _ _ _, written_of rfl he rfl (by
      repeat refine List.forall_mem_cons.mpr ⟨rfl, ?_⟩
      exact List.forall_mem_nil _), ?_⟩
    intro o ho
    simp only [Placed.optional, List.mem_cons, List.not_mem_nil, or_false] at ho
    obtain rfl | rfl | rfl := ho
    · exact (withCode_pairs (k := .text) (c := 50) rfl _ wh he (by decide) (by decide)).trans
        (emit_opt rfl rfl)
    · exact (withCode_pairs (k := .text) (c := 41) rfl _ wh he (by decide) (by decide)).trans
        (emit_opt rfl rfl)
    · exact (withCode_pairs (k := .text) (c := 51) rfl _ wh he (by decide) (by decide)).trans
        (emit_opt rfl rfl)
  case insert =>
    cases h
    refine ⟨pairs_head rfl _ _ _ _, written_of rfl he rfl (by
      repeat refine List.forall_mem_cons.mpr ⟨rfl, ?_⟩
      exact List.forall_mem_nil _), ?_⟩
    intro o ho
    simp only [Placed.optional, List.mem_cons, List.not_mem_nil, or_false] at ho
    obtain rfl | rfl | rfl | rfl := ho
    · exact (withCode_pairs (k := .insert) (c := 41) rfl _ wh he (by decide) (by decide)).trans
        (emit_opt rfl rfl)
    · exact (withCode_pairs (k := .insert) (c := 42) rfl _ wh he (by decide) (by decide)).trans
        (emit_opt rfl rfl)
    · exact (withCode_pairs (k := .insert) (c := 43) rfl _ wh he (by decide) (by decide)).trans
        (emit_opt rfl rfl)
    · exact (withCode_pairs (k := .insert) (c := 50) rfl _ wh he (by decide) (by decide)).trans
        (emit_opt rfl rfl)
  all_goals cases h

set_option maxRecDepth 20000 in
/-- C78: an entity that is read has what its pairs say by the DXF reference, in whatever order they
stand and whatever other fields there are; what is left out has its meaning. -/
theorem C78_read {x : Placed} {op q : CodePair} (hop : op.code = 0) (hv : op.value = .str x.name)
    {ps : List CodePair} (hf : ∀ p ∈ ps, FieldCode p.code)
    (hps : ∀ p ∈ x.needed, (ps.filter fun q => decide (q.code = p.code)).map CodePair.value = [p.value])
    (hos : ∀ o ∈ x.optional,
      (ps.filter fun q => decide (q.code = o.1)).map CodePair.value = [.double o.2.1] ∨
      ((ps.filter fun q => decide (q.code = o.1)) = [] ∧ o.2.1 = o.2.2))
    (hq : q.code = 0) {c : List CodePair} {f : Flat} {t : Stream}
    (hx : nextEntity (toStream (op :: (ps ++ q :: c))) = (.ok (some f), t)) :
    Placed.of f = some x := by
  have hc : ∀ p ∈ ps, plainCode p.code = true := fun p hp => by
    have := hf p hp
    simp only [FieldCode] at this
    simp only [plainCode, ne_eq, Bool.and_eq_true, decide_eq_true_eq]
    refine ⟨⟨⟨?_, ?_⟩, ?_⟩, ?_⟩ <;> omega
  rw [toStream_cons, toStream_append, toStream_cons] at hx
  cases x
  case text p h s r xs o =>
    obtain ⟨r', ext, xd, hr, rfl⟩ := nextEntity_fold (k := .text) (fun _ => rfl) (fun _ _ => rfl)
      (fun _ => rfl) hop hv rfl ⟨by simp [Placed.name], by simp [Placed.name]⟩ hc hq hx
    have h1 := point_read (i := 19) (c := 10) (P := p) rfl
      (fun q hq => hps q (by simp [Placed.needed, hq])) hr
    have h2 := num_read (i := 20) (c := 40) (z := h) rfl (hps (.newF64 40 h) (by simp [Placed.needed])) hr
    have h3 := str_read (i := 21) (c := 1) (z := s) rfl (hps (.newStr 1 s) (by simp [Placed.needed])) hr
    have h4 := opt_read (i := 22) (c := 50) (z := r) rfl
      (hos (50, r, .zero) (by simp [Placed.optional])) rfl hr
    have h5 := opt_read (i := 23) (c := 41) (z := xs) rfl
      (hos (41, xs, .unit) (by simp [Placed.optional])) rfl hr
    have h6 := opt_read (i := 24) (c := 51) (z := o) rfl
      (hos (51, o, .zero) (by simp [Placed.optional])) rfl hr
    change some (Placed.text (r'.finish 19) (r'.finish 20) (r'.finish 21) (r'.finish 22) (r'.finish 23)
      (r'.finish 24)) = _
    rw [show r'.finish 19 = p from Option.some.inj h1, show r'.finish 20 = h from Option.some.inj h2,
      show r'.finish 21 = s from Option.some.inj h3, show r'.finish 22 = r from Option.some.inj h4,
      show r'.finish 23 = xs from Option.some.inj h5, show r'.finish 24 = o from Option.some.inj h6]
  case insert s p xs ys zs r =>
    obtain ⟨r', ext, xd, hr, rfl⟩ := nextEntity_fold (k := .insert) (fun _ => rfl) (fun _ _ => rfl)
      (fun _ => rfl) hop hv rfl ⟨by simp [Placed.name], by simp [Placed.name]⟩ hc hq hx
    have h1 := str_read (i := 19) (c := 2) (z := s) rfl (hps (.newStr 2 s) (by simp [Placed.needed])) hr
    have h2 := point_read (i := 20) (c := 10) (P := p) rfl
      (fun q hq => hps q (by simp [Placed.needed, hq])) hr
    have h3 := opt_read (i := 21) (c := 41) (z := xs) rfl
      (hos (41, xs, .unit) (by simp [Placed.optional])) rfl hr
    have h4 := opt_read (i := 22) (c := 42) (z := ys) rfl
      (hos (42, ys, .unit) (by simp [Placed.optional])) rfl hr
    have h5 := opt_read (i := 23) (c := 43) (z := zs) rfl
      (hos (43, zs, .unit) (by simp [Placed.optional])) rfl hr
    have h6 := opt_read (i := 24) (c := 50) (z := r) rfl
      (hos (50, r, .zero) (by simp [Placed.optional])) rfl hr
    change some (Placed.insert (r'.finish 19) (r'.finish 20) (r'.finish 21) (r'.finish 22) (r'.finish 23)
      (r'.finish 24)) = _
    rw [show r'.finish 19 = s from Option.some.inj h1, show r'.finish 20 = p from Option.some.inj h2,
      show r'.finish 21 = xs from Option.some.inj h3, show r'.finish 22 = ys from Option.some.inj h4,
      show r'.finish 23 = zs from Option.some.inj h5, show r'.finish 24 = r from Option.some.inj h6]

/-- A block reference in a file, scaled only along x. -/
example (x y z s : F64) : ∃ f t,
    nextEntity (toStream (.newStr 0 str!"INSERT" :: ([.newF64 41 s, .newF64 30 z, .newStr 8 str!"a",
      .newF64 10 x, .newF64 20 y, .newStr 2 str!"b"] ++ .newStr 0 str!"ENDSEC" :: []))) =
        (.ok (some f), t) ∧
    Placed.of f = some (.insert str!"b" ⟨x, y, z⟩ s .unit .unit .zero) := by
  refine ⟨_, _, rfl, ?_⟩
  refine C78_read (x := .insert str!"b" ⟨x, y, z⟩ s .unit .unit .zero) (op := .newStr 0 str!"INSERT")
    (q := .newStr 0 str!"ENDSEC") (c := []) (ps := [.newF64 41 s, .newF64 30 z, .newStr 8 str!"a",
      .newF64 10 x, .newF64 20 y, .newStr 2 str!"b"]) rfl rfl ?_ ?_ ?_ rfl rfl
  · simp [FieldCode, CodePair.newF64, CodePair.newStr]
  · repeat refine List.forall_mem_cons.mpr ⟨rfl, ?_⟩
    exact List.forall_mem_nil _
  · exact List.forall_mem_cons.mpr ⟨.inl rfl, List.forall_mem_cons.mpr ⟨.inr ⟨rfl, rfl⟩,
      List.forall_mem_cons.mpr ⟨.inr ⟨rfl, rfl⟩, List.forall_mem_cons.mpr ⟨.inr ⟨rfl, rfl⟩,
        List.forall_mem_nil _⟩⟩⟩⟩

/-- A block reference meets the conditions for writing. -/
example (v : Version) (wh : Bool) :
    ((Entity.new .insert ((Rec.dflt EName.insert.decls).set 19 (str!"b" : Str))).pairs v wh).filter
      (fun q => decide (q.code = 2)) = [.newStr 2 str!"b"] :=
  (C78_written (x := .insert str!"b" ⟨.zero, .zero, .zero⟩ .unit .unit .unit .zero) rfl rfl rfl v wh).2.1
    (.newStr 2 str!"b") List.mem_cons_self

/-- C78: the sign of a zero is lost where zero may be left out: a block reference turned by −0.0 is
written without an angle, and that means 0.0. -/
theorem C78_zero {e : Entity} {n : Str} {p : Point} {x y z : F64}
    (h : Placed.of e.toFlat = some (.insert n p x y z ⟨0x8000000000000000#64⟩)) (he : e.entry.ext = [])
    (ha : e.extra.atts = []) (v : Version) (wh : Bool) :
    (e.pairs v wh).filter (fun q => decide (q.code = 50)) = [] :=
  ((C78_written h he ha v wh).2.2 (50, ⟨0x8000000000000000#64⟩, .zero)
    (by simp [Placed.optional])).trans (if_pos (by decide +kernel))

example : Placed.of (Entity.new .insert ((Rec.dflt EName.insert.decls).set 24
      (⟨0x8000000000000000#64⟩ : F64))).toFlat =
    some (.insert [] ⟨.zero, .zero, .zero⟩ .unit .unit .unit ⟨0x8000000000000000#64⟩) := rfl

end Dxf
