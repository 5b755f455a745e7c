import Verif.Lemmas.InsertPlaces
import Verif.Spec.Parts

/-! Sections that are given in parts. -/

namespace Dxf

/-! ### Loops -/

/-- A loop that comes to its end has enough rounds. -/
theorem Steps.finish {σ β : Type} {C : Int → Prop} {g : σ → Rd σ} (hg : Passes C g)
    {f : Nat → σ → Rd β}
    (hf : ∀ k st s st1 t, g st s = (.ok st1, t) → f (k + 1) st s = f k st1 t) {st st' : σ}
    {u : Stream} {q : CodePair} {z : Stream} (hq : C q.code)
    (h : Steps g st (u ++ some (.ok q) :: z) st' (some (.ok q) :: z))
    (hfi : Fine false (u ++ some (.ok q) :: z)) {x : Except DxfErr β × Stream}
    (hx : ∀ k, f (k + 1) st' (some (.ok q) :: z) = x) :
    Rd.withFuel (fun k => f k st) (u ++ some (.ok q) :: z) = x := by
  obtain ⟨_, n, hn, h1, _⟩ := Steps.loop hg hf hq hq (Nat.le_refl _) h hfi
  rw [Rd.run_withFuel]
  have e1 : (u ++ some (.ok q) :: z).length + 1 = (u.length + z.length + 1 - n) + 1 + n := by
    simp only [List.length_append, List.length_cons]; omega
  rw [e1, h1, hx]

theorem Steps.trans {σ : Type} {g : σ → Rd σ} {st st1 st2 : σ} {s t b : Stream}
    (h : Steps g st s st1 t) (h' : Steps g st1 t st2 b) : Steps g st s st2 b := by
  induction h with
  | here => exact h'
  | next h _ ih => exact .next h (ih h')

/-- The rounds that lead to a place lead to it whatever is there. -/
theorem Steps.move {σ : Type} {C : Int → Prop} {g : σ → Rd σ} (hg : Passes C g) {st st' : σ}
    {b y y' : List CodePair} {q q' : CodePair} (hq : C q.code) (hq' : C q'.code)
    (hl : y.length ≤ y'.length)
    (h : Steps g st (toStream (b ++ q :: y)) st' (toStream (q :: y))) :
    Steps g st (toStream (b ++ q' :: y')) st' (toStream (q' :: y')) := by
  have hf := fine_toStream (b ++ q :: y)
  simp only [toStream_append, toStream_cons] at h hf ⊢
  exact (Steps.loop hg (f := fun _ _ _ => (Except.ok (), [])) (fun _ _ _ _ _ _ => rfl) hq hq' (by simpa [toStream_length] using hl) h hf).1

/-- What a loop does to a list of pairs after which it stops. -/
theorem Steps.ends {σ β : Type} {C : Int → Prop} {g : σ → Rd σ} (hg : Passes C g)
    {f : Nat → σ → Rd β}
    (hf : ∀ k st s st1 t, g st s = (.ok st1, t) → f (k + 1) st s = f k st1 t) {st st' : σ}
    {b y : List CodePair} {q : CodePair} (hq : C q.code)
    (h : Steps g st (toStream (b ++ q :: y)) st' (toStream (q :: y)))
    {x : Except DxfErr β × Stream} (hx : ∀ k, f (k + 1) st' (toStream (q :: y)) = x) :
    Rd.withFuel (fun k => f k st) (toStream (b ++ q :: y)) = x := by
  have hfi := fine_toStream (b ++ q :: y)
  simp only [toStream_append, toStream_cons] at h hfi hx ⊢
  exact Steps.finish hg hf hq h hfi hx

/-- What comes after the first part begins with a mark. -/
theorem part_head {c e : List CodePair} {cl : CodePair} (hcl : cl.code = 0)
    (hc : ∀ q ∈ c.head?, q.code = 0) : ∃ q z, c ++ cl :: e = q :: z ∧ q.code = 0 := by
  cases c with
  | nil => exact ⟨cl, e, rfl, hcl⟩
  | cons q c => exact ⟨q, c ++ cl :: e, rfl, hc q rfl⟩

namespace Drawing

variable {Img : Type} {codec : ImageCodec Img} {h0 : Header} {order : List Str}

/-! ### Sections -/

theorem parts_load {name : Str} {a y y1 y2 : List CodePair} {cl op nm : CodePair} {d : Drawing Img}
    (h : InSection codec h0 order name a y d) (hm : BetweenParts name cl op nm)
    (hl : y.length ≤ y1.length + 1 + y2.length)
    (hs : (∃ d1, readSection codec h0 name d (toStream (y1 ++ cl :: op :: nm :: y2)) =
        (.ok d1, toStream (cl :: op :: nm :: y2)) ∧
        Sim (readSection codec h0 name d (toStream y)) (readSection codec h0 name d1 (toStream y2))) ∨
      ∃ e, (readSection codec h0 name d (toStream y)).1 = .error e ∧
        (readSection codec h0 name d (toStream (y1 ++ cl :: op :: nm :: y2))).1 = .error e) :
    Same (load codec h0 order) (toStream (a ++ y)) (toStream (a ++ (y1 ++ cl :: op :: nm :: y2))) := by
  obtain ⟨a, op', nm', y, d, hop, hnm, h⟩ := h
  have e : ∀ y, toStream (a ++ [op', nm'] ++ y) =
      toStream a ++ some (.ok op') :: some (.ok nm') :: toStream y := by
    intro y; simp [toStream]
  have hf := fine_toStream (a ++ [op', nm'] ++ y)
  rw [e] at hf ⊢
  rw [e]
  refine load_same codec h0 order fun d0 hn => ?_
  have hd := h d0 hn
  rw [show toStream (a ++ op' :: nm' :: y) =
    toStream a ++ some (.ok op') :: some (.ok nm') :: toStream y by simp [toStream]] at hd
  refine Steps.same (oneSection_passes codec h0) (f := readSections codec h0)
    (oneSection_loop codec h0) (q := op') (q' := op') trivial trivial
    (by simp only [List.length_cons, toStream_length, List.length_append]; omega) hd hf fun k hc => ?_
  obtain ⟨n, hn⟩ : ∃ n, (some (Except.ok nm') :: toStream (y1 ++ cl :: op :: nm :: y2) :
      Stream).length - (some (Except.ok nm') :: toStream y : Stream).length = n + 1 :=
    ⟨_, (Nat.sub_add_cancel (by
      simp only [List.length_cons, toStream_length, List.length_append]; omega)).symm⟩
  rw [hn]
  have e1 := readSections_open codec h0 k d [] [] (by simp) (by simp) op' nm' name hop hnm (toStream y)
  have e2 := readSections_open codec h0 (k + (n + 1)) d [] [] (by simp) (by simp) op' nm' name hop hnm
    (toStream (y1 ++ cl :: op :: nm :: y2))
  simp only [toStream_nil, List.nil_append] at e1 e2
  rw [e1] at hc ⊢
  rw [show k + 1 + (n + 1) = k + (n + 1) + 1 by omega, e2]
  rcases hs with ⟨d1, h1, h2⟩ | ⟨er, h1, h2⟩
  · have h3 : closed (readSection codec h0 name d) str!"ENDSEC"
        (toStream (y1 ++ cl :: op :: nm :: y2)) = (.ok d1, toStream (op :: nm :: y2)) :=
      closed_run (c := []) (by simp) hm.cl.1 hm.cl.2 h1
    rw [Rd.bind_ok h3]
    have e3 := readSections_open codec h0 (k + n) d1 [] [] (by simp) (by simp) op nm name hm.op hm.nm
      (toStream y2)
    simp only [toStream_nil, List.nil_append] at e3
    rw [show toStream (op :: nm :: y2) = some (.ok op) :: some (.ok nm) :: toStream y2 from rfl,
      show k + (n + 1) = k + n + 1 by omega, e3]
    have hb : Below (closed (readSection codec h0 name d1) str!"ENDSEC" >>= readSections codec h0 k)
        (closed (readSection codec h0 name d1) str!"ENDSEC" >>= readSections codec h0 (k + n)) :=
      .bind .rfl fun a => (readSections_mono codec h0 a).le (Nat.le_add_right k n)
    have h4 : Sim ((closed (readSection codec h0 name d) str!"ENDSEC" >>= readSections codec h0 k)
          (toStream y))
        ((closed (readSection codec h0 name d1) str!"ENDSEC" >>= readSections codec h0 k)
          (toStream y2)) := by
      unfold closed
      rw [bind_assoc, bind_assoc, Rd.run_bind, Rd.run_bind]
      rcases h5 : readSection codec h0 name d (toStream y) with ⟨x, t⟩
      rcases h6 : readSection codec h0 name d1 (toStream y2) with ⟨x', t'⟩
      rw [h5, h6] at h2
      obtain ⟨h7, h8⟩ := h2
      dsimp only at h7 h8
      subst h7
      cases x' with
      | error e => exact ⟨rfl, fun a ha => nomatch ha⟩
      | ok x =>
        rw [h8 x rfl]
        exact .refl
    refine h4.trans ?_
    rw [hb _ (h4.calm hc)]
    exact .refl
  · unfold closed
    rw [bind_assoc, bind_assoc, Rd.run_bind, Rd.run_bind]
    rcases h5 : readSection codec h0 name d (toStream y) with ⟨x, t⟩
    rcases h6 : readSection codec h0 name d (toStream (y1 ++ cl :: op :: nm :: y2)) with ⟨x', t'⟩
    rw [h5] at h1
    rw [h6] at h2
    dsimp only at h1 h2
    subst h1 h2
    exact ⟨rfl, fun a ha => nomatch ha⟩

/-! ### Tables and blocks -/

theorem readItems_end (type : Str) (callback : Drawing Img → Rd (Drawing Img)) (d : Drawing Img)
    {cl : CodePair} (hcl : cl.code = 0 ∧ cl.value = .str str!"ENDSEC") (y : List CodePair) (k : Nat) :
    readItems type callback (k + 1) d (toStream (cl :: y)) = (.ok d, toStream (cl :: y)) := by
  unfold readItems
  refine (Rd.bind_ok (next_comments [] (by simp) cl (by omega) _)).trans ?_
  rw [if_pos hcl.1]
  refine (Rd.bind_ok (m := Rd.lift cl.assertString) (a := str!"ENDSEC") (s := _) (s' := _)
    (by unfold CodePair.assertString; rw [hcl.2]; rfl)).trans ?_
  rw [if_pos rfl]
  rfl

theorem items_parts {name type : Str} {callback : Drawing Img → Rd (Drawing Img)} {C : Int → Prop}
    (hC : C 0) (hg : Passes C (wholeItem type callback)) (hne : type ≠ str!"ENDSEC")
    (hr : ∀ d, readSection codec h0 name d = Rd.withFuel fun k => readItems type callback k d)
    {a b c e : List CodePair} {cl cl' op nm : CodePair} {d d1 d2 : Drawing Img}
    (h : InSection codec h0 order name a (b ++ (c ++ cl :: e)) d) (hm : BetweenParts name cl' op nm)
    (hcl : cl.code = 0 ∧ cl.value = .str str!"ENDSEC") (hc : ∀ q ∈ c.head?, q.code = 0)
    (h1 : Steps (wholeItem type callback) d (toStream (b ++ (c ++ cl :: e))) d1
      (toStream (c ++ cl :: e)))
    (h2 : Steps (wholeItem type callback) d1 (toStream (c ++ cl :: e)) d2 (toStream (cl :: e))) :
    Same (load codec h0 order) (toStream (a ++ (b ++ (c ++ cl :: e))))
      (toStream (a ++ (b ++ cl' :: op :: nm :: (c ++ cl :: e)))) := by
  have hloop := wholeItem_loop (Img := Img) type hne callback
  refine parts_load h hm (by simp) (.inl ⟨d1, ?_, ?_⟩)
  · rw [hr]
    obtain ⟨q, z, hz, hq⟩ := part_head (e := e) hcl.1 hc
    rw [hz] at h1 ⊢
    exact Steps.ends hg hloop (by rw [hm.cl.1]; exact hC)
      (Steps.move hg (by rw [hq]; exact hC) (by rw [hm.cl.1]; exact hC) (by simp; omega) h1)
      fun k => readItems_end _ _ _ hm.cl _ k
  · rw [hr, hr, Steps.ends hg hloop (by rw [hcl.1]; exact hC) h2
      fun k => readItems_end _ _ _ hcl _ k]
    have h3 := h1.trans h2
    rw [show b ++ (c ++ cl :: e) = b ++ c ++ cl :: e by simp] at h3 ⊢
    rw [Steps.ends hg hloop (by rw [hcl.1]; exact hC) h3 fun k => readItems_end _ _ _ hcl _ k]
    exact .refl

end Drawing

end Dxf
