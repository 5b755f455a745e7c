import Verif.Lemmas.AfterDxb
import Verif.Lemmas.InterruptedBin
import Verif.Lemmas.Readers

/-! Files with something after the mark, from bytes to drawings. -/

namespace Dxf

variable {Img : Type}

/-! ### The two encodings read the same lines -/

theorem TextIter.items_length (enc : Enc) (fuel : Nat) : ∀ t : TextIter,
    (items fuel { t with enc := enc }).length = (items fuel t).length := by
  induction fuel with
  | zero => intro _; rfl
  | succ fuel ih =>
    intro t
    have rest : ∀ (a : Bool) (e e' : Enc) (b : List Byte),
        (readLine a e b).2 = (readLine a e' b).2 := by
      intro a e e' b
      have h : ∀ e, (readLine a e b).2 = (lineBytes a 0 false b).2 := by
        intro e
        unfold readLine
        dsimp only
        cases decode e (lineBytes a 0 false b).1 <;> rfl
      rw [h, h]
    have hv : ∀ (t : TextIter) code, (TextIter.readValue { t with enc := enc } code).2 =
        { (t.readValue code).2 with enc := enc } := by
      intro t code
      rw [readValue_state, readValue_state]
      dsimp only
      rw [rest false enc t.enc]
    have hc : TextIter.readCode { t with enc := enc } =
        (t.readCode.1, { t.readCode.2 with enc := enc }) := by
      unfold readCode
      dsimp only
      cases t.firstLine <;> rfl
    have hn : (TextIter.next { t with enc := enc }).2 = { t.next.2 with enc := enc } := by
      unfold next
      rw [hc]
      dsimp only
      cases hr : t.readCode.1 with
      | error e => rfl
      | ok line =>
        dsimp only
        split
        · rfl
        · cases parseI32 (trim line) t.readCode.2.offset with
          | error e => rfl
          | ok code => exact hv _ _
    unfold items
    rw [show TextIter.done { t with enc := enc } = t.done from rfl, hn]
    split
    · rfl
    · rw [List.length_cons, List.length_cons, ih]

/-! ### The change of the encoding -/

namespace Drawing

theorem loadUntil_ok {codec : ImageCodec Img} {h0 : Header} {order : List Str} {s : Stream}
    {d0 : Drawing Img} (hn : new h0 order = .ok d0) :
    loadUntil codec h0 order s = readSectionsUntil codec h0 (s.length + 1) d0.clear s := by
  unfold loadUntil
  rw [Rd.run_bind, show Rd.lift (new h0 order) s = (.ok d0, s) by unfold Rd.lift; rw [hn]]
  rfl

theorem switched_after (codec : ImageCodec Img) (h0 : Header) (order : List Str)
    {e e' : CodePair} (he : e.IsEof) (he' : e'.IsEof) {u u' : Stream} {d : Drawing Img}
    (hl : u.length = u'.length)
    (hf : Fine false (u ++ [some (.ok e)])) (hf' : Fine false (u' ++ [some (.ok e')]))
    (h : (load codec h0 order
      (switched codec h0 order (u ++ [some (.ok e)]) (u' ++ [some (.ok e')]))).1 = .ok d)
    (r r' : Stream) :
    (load codec h0 order
      (switched codec h0 order (u ++ some (.ok e) :: r) (u' ++ some (.ok e') :: r'))).1 = .ok d := by
  obtain ⟨d0, _, _, _, hn, _, _⟩ := load_inv h
  rcases hm : loadUntil codec h0 order (u ++ [some (.ok e)]) with ⟨x, t⟩
  have hm' := hm
  rw [loadUntil_ok hn] at hm'
  have more : ∀ r : Stream, (u ++ some (Except.ok (ε := DxfErr) e) :: r).length + 1 =
      (u ++ [some (Except.ok (ε := DxfErr) e)]).length + 1 + r.length := by
    intro r
    simp
    omega
  cases x with
  | error x =>
    exfalso
    have hs : switched codec h0 order (u ++ [some (.ok e)]) (u' ++ [some (.ok e')]) =
        u ++ [some (.ok e)] := by
      unfold switched
      rw [hm]
    rw [hs] at h
    obtain ⟨d0', d1, t1, _, hn', h1, _⟩ := load_inv h
    rw [hn] at hn'
    cases hn'
    obtain ⟨b, t', hb⟩ := readSectionsUntil_ok codec h0 _ _ _ _ _ h1
    rw [hb] at hm'
    cases hm'
  | ok b =>
    rcases readSectionsUntil_after codec h0 he _ u d0.clear b t hf hm' with
      ⟨rfl, h1⟩ | ⟨rfl, v, rfl, h1⟩
    · have hs : switched codec h0 order (u ++ [some (.ok e)]) (u' ++ [some (.ok e')]) =
          u ++ [some (.ok e)] := by
        unfold switched
        rw [hm]
      rw [hs] at h
      obtain ⟨t', h2⟩ := h1 r r.length
      have hs' : switched codec h0 order (u ++ some (.ok e) :: r) (u' ++ some (.ok e') :: r') =
          u ++ some (.ok e) :: r := by
        unfold switched
        rw [loadUntil_ok hn, more, h2]
      rw [hs']
      exact load_after codec h0 order he hf h r
    · have h2 := h1 r r.length
      have e1 : (u ++ [some (Except.ok (ε := DxfErr) e)]).length -
          (v ++ [some (Except.ok (ε := DxfErr) e)]).length = u.length - v.length := by
        simp
      have e2 : (u ++ some (Except.ok (ε := DxfErr) e) :: r).length -
          (v ++ some (Except.ok (ε := DxfErr) e) :: r).length = u.length - v.length := by
        rw [List.length_append, List.length_append]
        omega
      have hk : u.length - v.length ≤ u.length := Nat.sub_le _ _
      generalize u.length - v.length = k at e1 e2 hk
      have hs : switched codec h0 order (u ++ [some (.ok e)]) (u' ++ [some (.ok e')]) =
          (u.take k ++ u'.drop k) ++ [some (.ok e')] := by
        unfold switched
        rw [hm]
        dsimp only
        rw [e1, List.take_append_of_le_length hk, List.drop_append_of_le_length (by omega),
          List.append_assoc]
      have hs' : switched codec h0 order (u ++ some (.ok e) :: r) (u' ++ some (.ok e') :: r') =
          (u.take k ++ u'.drop k) ++ some (.ok e') :: r' := by
        unfold switched
        rw [loadUntil_ok hn, more, h2]
        dsimp only
        rw [e2, List.take_append_of_le_length hk, List.drop_append_of_le_length (by omega),
          List.append_assoc]
      rw [hs] at h
      rw [hs']
      refine load_after codec h0 order he' (fun it hit => ?_) h r'
      rw [List.append_assoc, List.mem_append] at hit
      rcases hit with hit | hit
      · exact hf it (List.mem_append_left _ (List.mem_of_mem_take hit))
      · refine hf' it ?_
        rw [List.mem_append] at hit ⊢
        exact hit.imp_left List.mem_of_mem_drop

end Drawing

/-! ### Saved files -/

theorem Drawing.codePairs_end {codec : ImageCodec Img} {d : Drawing Img} {ps : List CodePair}
    (h : d.codePairs codec = .ok ps) : ∃ qs, ps = qs ++ [.newStr 0 str!"EOF"] := by
  unfold codePairs at h
  cases h1 : d.objectPairs with
  | error e => rw [h1] at h; cases h
  | ok os =>
    rw [h1] at h
    cases h2 : d.thumbnailPairs codec with
    | error e => rw [h2] at h; cases h
    | ok ts =>
      rw [h2] at h
      exact ⟨_, (Except.ok.inj h).symm⟩

theorem fine_file {enc : Enc} {file : List Byte} {main alt : Stream}
    (h : fileItems enc file = .ok (some (main, alt))) : Fine false main ∧ Fine false alt := by
  obtain ⟨h1, h2, _⟩ := (fileItems_good enc file).2 main alt h
  refine ⟨fun it hm => ⟨fun he => ?_, by simp⟩, fun it hm => ⟨fun he => ?_, by simp⟩⟩
  · subst he; exact h1 _ hm (.inr rfl)
  · subst he; exact h2 _ hm (.inr rfl)

theorem fileItems_length {enc : Enc} {file : List Byte} {main alt : Stream}
    (h : fileItems enc file = .ok (some (main, alt))) : main.length = alt.length := by
  unfold fileItems at h
  dsimp only at h
  cases hl : (readLine true enc file).1 with
  | error e => rw [hl] at h; cases h
  | ok l =>
    rw [hl] at h
    dsimp only at h
    split at h
    · cases h
    · unfold newPairIter at h
      split at h
      · split at h
        · cases h
        · dsimp only at h
          split at h
          · cases h
          · split at h
            · cases h
            · split at h
              · cases h
              · cases h; rfl
      · cases h
        exact (TextIter.items_length .utf8 _ _).symm

theorem next_written_line {p : CodePair} (hp : (ExpectedType.new p.code).isSome = true) (old : Bool)
    (enc : Enc) (rest : List Byte) (off : Nat) :
    ∃ it, TextIter.next ⟨writeAsciiPair old p ++ rest, enc, none, off⟩ =
      (it, ⟨rest, enc, none, off + 2⟩) := by
  obtain ⟨t, ht⟩ := Option.isSome_iff_exists.mp hp
  obtain ⟨h0, h1⟩ := expected_range ht
  rw [asciiPair_split, next_code h0 h1]
  refine ⟨_, Prod.ext rfl ?_⟩
  rw [readValue_state, readLine_line _ (no_lf_of_ge (valueLine_ge old p.value))]

/-- The last pair of a text file that has been written. -/
theorem items_eof (old : Bool) (enc : Enc) : ∀ (ps : List CodePair),
    (∀ p ∈ ps, (ExpectedType.new p.code).isSome = true) → ∀ (fuel off : Nat), ps.length + 1 < fuel →
      LastIsEof (TextIter.items fuel
        ⟨writeAscii old (ps ++ [.newStr 0 str!"EOF"]), enc, none, off⟩) := by
  intro ps
  have hplain : PlainWord (str!"EOF") := by
    unfold PlainWord
    decide
  induction ps with
  | nil =>
    intro _ fuel off hf
    obtain ⟨n, rfl⟩ : ∃ n, fuel = n + 2 := ⟨fuel - 2, by simp at hf; omega⟩
    rw [List.nil_append, items_step (p := .newStr 0 str!"EOF") [] (by decide) (hplain.ok old enc)]
    exact ⟨[], _, by rw [TextIter.items]; rfl, rfl, rfl⟩
  | cons p ps ih =>
    intro hp fuel off hf
    obtain ⟨n, rfl⟩ : ∃ n, fuel = n + 1 := ⟨fuel - 1, by simp at hf; omega⟩
    rw [List.cons_append, TextIter.items, writeAscii_cons]
    obtain ⟨it, h1⟩ := next_written_line (hp p List.mem_cons_self) old enc
      (writeAscii old (ps ++ [.newStr 0 str!"EOF"])) off
    have hd : TextIter.done ⟨writeAsciiPair old p ++ writeAscii old (ps ++ [.newStr 0 str!"EOF"]),
        enc, none, off⟩ = false := by
      simp only [TextIter.done, Bool.and_eq_false_iff]
      left
      rw [List.isEmpty_eq_false_iff]
      exact writeAsciiPair_ne_nil old p _
    rw [hd, h1]
    simp only [Bool.false_eq_true, if_false]
    obtain ⟨u, e, h2, h3⟩ := ih (fun q hq => hp q (List.mem_cons_of_mem _ hq)) n (off + 2)
      (by simp at hf; omega)
    exact ⟨it :: u, e, by rw [h2]; rfl, h3⟩

theorem marked_text (old : Bool) (enc : Enc) {q : CodePair} {ps : List CodePair}
    (hp : ∀ p ∈ q :: ps, (ExpectedType.new p.code).isSome = true) :
    EndsMarked enc (writeAscii old (q :: ps ++ [.newStr 0 str!"EOF"])) := by
  obtain ⟨t, ht⟩ := Option.isSome_iff_exists.mp (hp q List.mem_cons_self)
  obtain ⟨h0, h1⟩ := expected_range ht
  have key : ∀ enc, LastIsEof (TextIter.all
      ⟨utf8Encode (valueLine old q.value ++ str!"\r\n") ++
        writeAscii old (ps ++ [.newStr 0 str!"EOF"]), enc, some (codeText q.code), 1⟩) := by
    intro enc
    rw [all_code h0 h1, readValue_state, readLine_line _ (no_lf_of_ge (valueLine_ge old q.value))]
    obtain ⟨u, e, h2, h3⟩ := items_eof old enc ps (fun p h => hp p (List.mem_cons_of_mem _ h))
      (utf8Encode (valueLine old q.value ++ str!"\r\n") ++
        writeAscii old (ps ++ [.newStr 0 str!"EOF"])).length 2 (by
        rw [List.length_append, utf8Encode_append, List.length_append]
        have := length_le_writeAscii old (ps ++ [.newStr 0 str!"EOF"])
        have e : (utf8Encode (str!"\r\n")).length = 2 := by decide
        rw [List.length_append] at this
        simp only [List.length_cons, List.length_nil] at this
        omega)
    exact ⟨_ :: u, e, by rw [h2]; rfl, h3⟩
  exact ⟨_, _, fileItems_written old enc q _, key enc, key .utf8⟩

theorem ends_text (old : Bool) (ps : List CodePair) (p : CodePair) :
    EndsWithLine (writeAscii old (ps ++ [p])) := by
  have : writeAscii old (ps ++ [p]) = writeAscii old ps ++ writeAsciiPair old p := by
    simp [writeAscii]
  rw [this]
  have h2 := asciiPair_split old p []
  rw [List.append_nil, List.append_nil, utf8Encode_append (valueLine old p.value)] at h2
  rw [h2]
  have e : utf8Encode (str!"\r\n") = [0x0D#8] ++ [0x0A#8] := by decide
  rw [e]
  refine ⟨writeAscii old ps ++ (utf8Encode (codeText p.code ++ str!"\r\n") ++
    (utf8Encode (valueLine old p.value) ++ [0x0D#8])), ?_⟩
  simp only [List.append_assoc]

end Dxf
