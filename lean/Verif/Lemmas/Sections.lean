import Verif.Lemmas.NiceFile
import Verif.Lemmas.Block

/-! How `readSections` moves through a stream. -/

namespace Dxf

/-- A comment. -/
def CodePair.IsComment (p : CodePair) : Prop := p.code = 999

/-- The next item of a stream comes after comments. -/
theorem Stream.next_split (s : Stream) (it : Except DxfErr CodePair) (s' : Stream)
    (h : s.next = (some it, s')) : ∃ c : List CodePair, (∀ p ∈ c, p.code = 999) ∧
      s = toStream c ++ some it :: s' ∧ ∀ p, it = .ok p → p.code ≠ 999 := by
  induction s with
  | nil => simp [Stream.next] at h
  | cons x r ih =>
    rw [Stream.next] at h
    split at h
    · rename_i hx
      obtain ⟨c, hc, hr, hp⟩ := ih h
      unfold isComment at hx
      split at hx
      · rename_i p
        refine ⟨p :: c, ?_, by rw [hr]; rfl, hp⟩
        intro q hq
        rcases List.mem_cons.mp hq with rfl | hq
        · simpa using hx
        · exact hc q hq
      · simp at hx
    · rename_i hx
      simp only [Prod.mk.injEq] at h
      obtain ⟨rfl, rfl⟩ := h
      refine ⟨[], by simp, rfl, ?_⟩
      rintro p rfl
      simpa [isComment] using hx

/-- A pair that was read comes after comments. -/
theorem Rd.next_ok {s s' : Stream} {p : CodePair} (h : Rd.next s = (.ok p, s')) :
    ∃ c : List CodePair, (∀ q ∈ c, q.code = 999) ∧ s = toStream c ++ some (.ok p) :: s' ∧
      p.code ≠ 999 := by
  unfold Rd.next at h
  rcases hs : s.next with ⟨x, r⟩
  rw [hs] at h
  rcases x with _ | (e | q)
  · cases h
  · cases h
  · cases h
    obtain ⟨c, h1, h2, h3⟩ := Stream.next_split s _ _ hs
    exact ⟨c, h1, h2, h3 _ rfl⟩

theorem Rd.next?_ok {s s' : Stream} {p : CodePair} (h : Rd.next? s = (.ok (some p), s')) :
    ∃ c : List CodePair, (∀ q ∈ c, q.code = 999) ∧ s = toStream c ++ some (.ok p) :: s' ∧
      p.code ≠ 999 := by
  unfold Rd.next? at h
  rcases hs : s.next with ⟨x, r⟩
  rw [hs] at h
  rcases x with _ | (e | q)
  · cases h
  · cases h
  · cases h
    obtain ⟨c, h1, h2, h3⟩ := Stream.next_split s _ _ hs
    exact ⟨c, h1, h2, h3 _ rfl⟩

/-- Of what a bind does when it succeeds. -/
theorem Rd.bind_inv {α β : Type} {m : Rd α} {f : α → Rd β} {s s' : Stream} {b : β}
    (h : (m >>= f) s = (.ok b, s')) : ∃ a t, m s = (.ok a, t) ∧ f a t = (.ok b, s') := by
  rw [Rd.run_bind] at h
  rcases hm : m s with ⟨x, t⟩
  rw [hm] at h
  cases x with
  | ok a => exact ⟨a, t, rfl, h⟩
  | error e => cases h

namespace Drawing

variable {Img : Type}

theorem expect_ok {mark : Str} {s s' : Stream} {u : Unit} (h : expect mark s = (.ok u, s')) :
    ∃ (c : List CodePair) (e : CodePair), (∀ q ∈ c, q.code = 999) ∧
      s = toStream c ++ some (.ok e) :: s' ∧ e.code = 0 ∧ e.value = .str mark := by
  obtain ⟨p, t, h1, h2⟩ := Rd.bind_inv h
  obtain ⟨c, hc, hs, _⟩ := Rd.next_ok h1
  replace h2 : (if p.code = 0 ∧ p.value = .str mark then (return ()) else
    Rd.fail (.unexpectedCodePair p) : Rd Unit) t = (.ok u, s') := h2
  split at h2
  · rename_i hp
    cases h2
    exact ⟨c, p, hc, hs, hp⟩
  · cases h2

/-- One round of `readSections` that did not fail: the input has come to its end, the mark of the
end has been reached, or a section has been read. -/
theorem readSections_inv (codec : ImageCodec Img) (h0 : Header) {fuel : Nat} {d d' : Drawing Img}
    {s s' : Stream} (h : readSections codec h0 (fuel + 1) d s = (.ok d', s')) :
    (Rd.next? s = (.ok none, s') ∧ d' = d) ∨
    (∃ p t, Rd.next? s = (.ok (some p), t) ∧ p.code = 0 ∧ p.value = .str str!"EOF" ∧ d' = d ∧
      s' = some (.ok p) :: t) ∨
    ∃ p q name t1 t2 d1 t3 t4, Rd.next? s = (.ok (some p), t1) ∧ p.code = 0 ∧
      p.value = .str str!"SECTION" ∧ Rd.next t1 = (.ok q, t2) ∧ q.code = 2 ∧ q.value = .str name ∧
      readSection codec h0 name d t2 = (.ok d1, t3) ∧ expect str!"ENDSEC" t3 = (.ok (), t4) ∧
      readSections codec h0 fuel d1 t4 = (.ok d', s') := by
  unfold readSections at h
  obtain ⟨a, t, h1, h2⟩ := Rd.bind_inv h
  cases a with
  | none => cases h2; exact .inl ⟨h1, rfl⟩
  | some p =>
    by_cases hp : p.code = 0
    swap
    · dsimp only at h2; rw [if_neg hp] at h2; cases h2
    dsimp only at h2
    rw [if_pos hp] at h2
    obtain ⟨s1, t', h3, h4⟩ := Rd.bind_inv h2
    have hv : p.value = .str s1 ∧ t' = t := by
      unfold Rd.lift CodePair.assertString at h3
      split at h3
      · cases h3; simp_all
      · cases h3
    obtain ⟨hv, rfl⟩ := hv
    by_cases he : s1 = str!"EOF"
    · rw [if_pos he] at h4
      cases h4
      exact .inr (.inl ⟨p, t', h1, hp, by rw [hv, he], rfl, rfl⟩)
    rw [if_neg he] at h4
    by_cases hs : s1 = str!"SECTION"
    swap
    · rw [if_neg hs] at h4; cases h4
    rw [if_pos hs] at h4
    obtain ⟨q, t2, h5, h6⟩ := Rd.bind_inv h4
    rcases q with ⟨c, value, o⟩
    cases value
    case str name =>
      by_cases hq : c = 2
      swap
      · change (if c = 2 then _ else Rd.fail _ : Rd _) t2 = _ at h6
        rw [if_neg hq] at h6; cases h6
      change (if c = 2 then _ else Rd.fail _ : Rd _) t2 = _ at h6
      rw [if_pos hq] at h6
      obtain ⟨d1, t3, h7, h8⟩ := Rd.bind_inv h6
      obtain ⟨u, t4, h9, h10⟩ := Rd.bind_inv h8
      exact .inr (.inr ⟨p, _, name, t', t2, d1, t3, t4, h1, hp, by rw [hv, hs], h5, hq, rfl, h7,
        h9, h10⟩)
    all_goals cases h6

end Drawing

end Dxf
