import Verif.Spec.Interrupted
import Verif.Lemmas.Cut
import Verif.Lemmas.SafeBytes
import Mathlib.Data.List.Forall2

/-! Files of which only the first bytes have been written: what is read from them. -/

namespace Dxf

/-- The item is a pair with code 0 and this word. -/
def IsWord (w : Str) (it : Item) : Prop := ∃ p, it = some (.ok p) ∧ p.code = 0 ∧ p.value = .str w

theorem next?_not_none {x : Item} (hx : x ≠ none) (hc : isComment x = false) (b : Stream)
    {s' : Stream} : ∀ a : Stream, none ∉ a → Rd.next? (a ++ x :: b) ≠ (.ok none, s') := by
  intro a
  induction a with
  | nil =>
    intro _ h
    unfold Rd.next? at h
    rw [List.nil_append, Stream.next, hc] at h
    rcases x with _ | (e | p)
    · exact hx rfl
    · cases h
    · cases h
  | cons y a ih =>
    intro hn h
    unfold Rd.next? at h
    rw [List.cons_append, Stream.next] at h
    by_cases hy : isComment y
    · rw [if_pos hy] at h
      exact ih (fun hm => hn (List.mem_cons_of_mem _ hm)) h
    · rw [if_neg hy] at h
      rcases y with _ | (e | p)
      · exact hn List.mem_cons_self
      · cases h
      · cases h

theorem isComment_of_code {q : CodePair} (h : q.code = 999) : isComment (some (.ok q)) = true := by
  simp [isComment, h]

namespace Drawing

variable {Img : Type}

/-- Reading the sections of a stream that ends inside a section, or has something else than a
section after the sections, fails. -/
theorem readSections_stops (codec : ImageCodec Img) (h0 : Header) {x : Item} {b : Stream}
    (hx : x ≠ none) (hc : isComment x = false) (hE : ¬ IsWord str!"EOF" x)
    (hN : ∀ it ∈ x :: b, ¬ IsWord str!"ENDSEC" it) (hf : Fine false (x :: b)) (fuel : Nat) :
    ∀ (a : Stream) (d d' : Drawing Img) (s' : Stream), none ∉ a →
      (∀ it ∈ a, ¬ IsWord str!"EOF" it) → Fine false a →
      readSections codec h0 fuel d (a ++ x :: b) ≠ (.ok d', s') := by
  induction fuel with
  | zero => intro _ _ _ _ _ _ _ h; cases h
  | succ fuel ih =>
    intro a d d' s' hn ha hfa h
    have hfine : Fine false (a ++ x :: b) := fun it hm =>
      (List.mem_append.mp hm).elim (hfa it) (hf it)
    rcases readSections_inv codec h0 h with ⟨h1, _⟩ | ⟨p, t, h1, hp, hv, _⟩ |
      ⟨p, q, name, t1, t2, d1, t3, t4, h1, hp, hv, h2, _, _, h3, h4, h5⟩
    · exact next?_not_none hx hc b a hn h1
    · obtain ⟨c, hcc, e1, _⟩ := Rd.next?_ok h1
      rcases List.append_eq_append_iff.mp e1 with ⟨y, hy, hz⟩ | ⟨y, hy, hz⟩
      · -- the comments go beyond `a`
        cases y with
        | nil =>
          simp only [List.nil_append, List.cons.injEq] at hz
          exact hE ⟨p, hz.1, hp, hv⟩
        | cons z y =>
          simp only [List.cons_append, List.cons.injEq] at hz
          have hm : x ∈ toStream c := by rw [hy, hz.1]; simp
          obtain ⟨q, hq, e⟩ := List.mem_map.mp hm
          rw [← e, isComment_of_code (hcc q hq)] at hc
          cases hc
      · cases y with
        | nil =>
          simp only [List.nil_append, List.cons.injEq] at hz
          exact hE ⟨p, hz.1.symm, hp, hv⟩
        | cons z y =>
          simp only [List.cons_append, List.cons.injEq] at hz
          exact ha z (by rw [hy]; simp) ⟨p, hz.1.symm, hp, hv⟩
    · obtain ⟨e, he, hv', hsuf⟩ := section_suffix codec h0 hfine h1 h2 h3 h4
      obtain ⟨a', h6, h7⟩ := suffix_before _ _ hsuf fun hm => hN _ hm ⟨e, rfl, he, hv'⟩
      rw [h6] at h5
      exact ih a' d1 d' s' (fun hm => hn (h7.subset hm)) (fun it hm => ha it (h7.subset hm))
        (hfa.suffix h7) h5

theorem load_stops (codec : ImageCodec Img) (h0 : Header) (order : List Str) {a b : Stream}
    {x : Item} (hn : none ∉ a) (ha : ∀ it ∈ a, ¬ IsWord str!"EOF" it) (hx : x ≠ none)
    (hc : isComment x = false) (hE : ¬ IsWord str!"EOF" x)
    (hN : ∀ it ∈ x :: b, ¬ IsWord str!"ENDSEC" it) (hf : Fine false (a ++ x :: b))
    (d : Drawing Img) : (load codec h0 order (a ++ x :: b)).1 ≠ .ok d := by
  intro h
  obtain ⟨_, _, _, _, _, h1, _⟩ := load_inv h
  exact readSections_stops codec h0 hx hc hE hN (hf.suffix (List.suffix_append _ _)) _ a _ _ _ hn ha
    (fun it hm => hf it (List.mem_append_left _ hm)) h1

end Drawing

/-! ### The sections of a file -/

theorem AllQuiet.noWord {ps : List CodePair} (h : AllQuiet ps) {w : Str} (hw : w ∈ brackets) :
    ∀ p ∈ ps, ¬ (p.code = 0 ∧ p.value = .str w) := by
  rintro p hp ⟨h0, hv⟩
  obtain ⟨s, hs, hq⟩ := h p hp h0
  rw [hv] at hs
  cases hs
  exact hq hw

/-- Inside a section there is neither the end of a section nor the end of the file. -/
theorem SectionBody.noWord {name : Str} {body : List CodePair} (h : SectionBody name body) {w : Str}
    (hw : w = str!"ENDSEC" ∨ w = str!"EOF") : ∀ p ∈ body, ¬ (p.code = 0 ∧ p.value = .str w) := by
  have hb : w ∈ brackets := by rcases hw with rfl | rfl <;> decide
  have hne : ∀ m ∈ [str!"TABLE", str!"ENDTAB", str!"BLOCK", str!"ENDBLK"],
      ¬ ((CodePair.newStr 0 m).code = 0 ∧ (CodePair.newStr 0 m).value = .str w) := by
    rcases hw with rfl | rfl <;> decide
  unfold SectionBody at h
  split at h
  · obtain ⟨ts, rfl, ht⟩ := h
    intro p hp
    obtain ⟨t, htm, hp⟩ := List.mem_flatMap.mp hp
    simp only [List.cons_append, List.nil_append, List.mem_append, List.mem_cons,
      List.not_mem_nil, or_false] at hp
    rcases hp with rfl | rfl | hp | rfl
    · exact hne _ (by simp)
    · exact fun h => absurd (show (2 : Int) = 0 from h.1) (by decide)
    · exact (ht t htm).noWord hb p hp
    · exact hne _ (by simp)
  · split at h
    · obtain ⟨bs, rfl, hbs⟩ := h
      intro p hp
      obtain ⟨b, hbm, hp⟩ := List.mem_flatMap.mp hp
      simp only [List.cons_append, List.mem_append, List.mem_cons] at hp
      rcases hp with rfl | hp | rfl | hp
      · exact hne _ (by simp)
      · exact (hbs b hbm).1.noWord hb p hp
      · exact hne _ (by simp)
      · exact (hbs b hbm).2.noWord hb p hp
    · exact h.noWord hb

/-- The first pairs of a well bracketed file: no section is open and a section or the end comes
next, or there is an open section. -/
theorem bracketed_take (sections : List (Str × List CodePair))
    (h : ∀ s ∈ sections, SectionBody s.1 s.2) : ∀ (ps : List CodePair) (k : Nat),
    ps = (sections.flatMap fun s => [.newStr 0 str!"SECTION", .newStr 2 s.1] ++ s.2 ++
      [.newStr 0 str!"ENDSEC"]) ++ [.newStr 0 str!"EOF"] → k < ps.length →
    (BetweenSections (ps.take k) ∧ (∀ p ∈ ps.take k, ¬ (p.code = 0 ∧ p.value = .str str!"EOF")) ∧
      (ps[k]? = some (.newStr 0 str!"SECTION") ∨ ps[k]? = some (.newStr 0 str!"EOF"))) ∨
    ∃ a b, ps.take k = a ++ .newStr 0 str!"SECTION" :: b ∧
      (∀ p ∈ a, ¬ (p.code = 0 ∧ p.value = .str str!"EOF")) ∧
      ∀ p ∈ b, ¬ (p.code = 0 ∧ p.value = .str str!"ENDSEC") := by
  induction sections with
  | nil =>
    intro ps k hps hk
    subst hps
    simp only [List.flatMap_nil, List.nil_append, List.length_singleton] at hk
    obtain rfl : k = 0 := by omega
    exact .inl ⟨.inl rfl, (fun _ hm => nomatch hm), .inr rfl⟩
  | cons s sections ih =>
    intro ps k hps hk
    obtain ⟨hs, hrest⟩ := List.forall_mem_cons.mp h
    rw [List.flatMap_cons, List.append_assoc] at hps
    generalize hr : (sections.flatMap fun s => [CodePair.newStr 0 str!"SECTION", .newStr 2 s.1] ++
      s.2 ++ [.newStr 0 str!"ENDSEC"]) ++ [CodePair.newStr 0 str!"EOF"] = rest at hps ih
    have hlen : ([CodePair.newStr 0 str!"SECTION", .newStr 2 s.1] ++ s.2 ++
        [CodePair.newStr 0 str!"ENDSEC"]).length = s.2.length + 3 := by simp
    by_cases hk1 : k < s.2.length + 3
    · rcases Nat.eq_zero_or_pos k with rfl | hk0
      · exact .inl ⟨.inl rfl, (fun _ hm => nomatch hm), .inl (by rw [hps]; rfl)⟩
      · obtain ⟨j, rfl⟩ : ∃ j, k = j + 1 := ⟨k - 1, by omega⟩
        refine .inr ⟨[], (CodePair.newStr 2 s.1 :: s.2).take j, ?_, (fun _ hm => nomatch hm), ?_⟩
        · rw [hps, List.take_append_of_le_length (by omega)]
          simp only [List.cons_append, List.nil_append, List.take_succ_cons]
          congr 1
          rw [← List.cons_append, List.take_append_of_le_length (by simp; omega)]
        · intro p hp
          rcases List.mem_cons.mp (List.mem_of_mem_take hp) with rfl | hp
          · exact fun h => absurd (show (2 : Int) = 0 from h.1) (by decide)
          · exact hs.noWord (.inl rfl) p hp
    · have hsec : ∀ p ∈ [CodePair.newStr 0 str!"SECTION", .newStr 2 s.1] ++ s.2 ++
          [.newStr 0 str!"ENDSEC"], ¬ (p.code = 0 ∧ p.value = .str str!"EOF") := by
        intro p hp
        simp only [List.cons_append, List.nil_append, List.mem_cons, List.mem_append,
          List.not_mem_nil, or_false] at hp
        rcases hp with rfl | rfl | hp | rfl
        · decide
        · exact fun h => absurd (show (2 : Int) = 0 from h.1) (by decide)
        · exact hs.noWord (.inr rfl) p hp
        · decide
      have htake : ps.take k = ([CodePair.newStr 0 str!"SECTION", .newStr 2 s.1] ++ s.2 ++
          [.newStr 0 str!"ENDSEC"]) ++ rest.take (k - (s.2.length + 3)) := by
        rw [hps, List.take_append, hlen, List.take_of_length_le (by omega)]
      have hget : ps[k]? = rest[k - (s.2.length + 3)]? := by
        rw [hps, List.getElem?_append_right (by omega), hlen]
      have hlen2 : ps.length = s.2.length + 3 + rest.length := by
        rw [hps, List.length_append, hlen]
      rcases ih hrest rest (k - (s.2.length + 3)) rfl (by omega) with
        ⟨h1, h2, h3⟩ | ⟨a, b, h1, h2, h3⟩
      · refine .inl ⟨?_, ?_, by rw [hget]; exact h3⟩
        · rw [htake]
          rcases h1 with h1 | ⟨a, p, h1, hp⟩
          · exact .inr ⟨[.newStr 0 str!"SECTION", .newStr 2 s.1] ++ s.2, .newStr 0 str!"ENDSEC",
              by rw [h1]; simp, rfl, .inl rfl⟩
          · exact .inr ⟨_, p, by rw [h1, ← List.append_assoc], hp⟩
        · rw [htake]
          exact List.forall_mem_append.mpr ⟨hsec, h2⟩
      · refine .inr ⟨([CodePair.newStr 0 str!"SECTION", .newStr 2 s.1] ++ s.2 ++
          [.newStr 0 str!"ENDSEC"]) ++ a, b, ?_, List.forall_mem_append.mpr ⟨hsec, h2⟩, h3⟩
        rw [htake, h1, List.append_assoc _ a]

/-! ### What is read from the first bytes of a file -/

/-- An item that is read from all bytes of a pair: an error, or a pair with the same code, and with
the same word after code 0. -/
def Shown (p : CodePair) (it : Item) : Prop :=
  (∃ e, it = some (.error e)) ∨
  ∃ q, it = some (.ok q) ∧ q.code = p.code ∧ (p.code = 0 → q.value = p.value)

/-- An item that is read from some of the bytes of a pair, which are few or nearly all. -/
def Torn (few nearly : Prop) (p : CodePair) (it : Item) : Prop :=
  (p.code = 0 → it = none → few) ∧
  ∀ q, it = some (.ok q) → (p.code = 0 → q.code = 0) ∧
    ∀ w, q.code = 0 → q.value = .str w → w ≠ [] →
      p.code = 0 ∧ ∃ w0, p.value = .str w0 ∧ w <+: w0 ∧ (w = w0 → nearly)

theorem Shown.not_none {p : CodePair} : ¬ Shown p none := by
  rintro (⟨e, h⟩ | ⟨q, h, _⟩) <;> cases h

theorem Shown.word {p : CodePair} {it : Item} (h : Shown p it) {w : Str} (hw : IsWord w it) :
    p.code = 0 ∧ p.value = .str w := by
  obtain ⟨q, rfl, hc, hv⟩ := hw
  rcases h with ⟨e, h⟩ | ⟨q', h, h1, h2⟩
  · cases h
  · cases h
    exact ⟨h1 ▸ hc, (h2 (h1 ▸ hc)).symm.trans hv⟩

theorem Shown.mem {ps : List CodePair} {s : Stream} (h : List.Forall₂ Shown ps s) {it : Item}
    (hm : it ∈ s) : ∃ p ∈ ps, Shown p it := by
  induction h with
  | nil => cases hm
  | cons h1 _ ih =>
    rcases List.mem_cons.mp hm with rfl | hm
    · exact ⟨_, List.mem_cons_self, h1⟩
    · obtain ⟨p, hp, h⟩ := ih hm
      exact ⟨p, List.mem_cons_of_mem _ hp, h⟩

theorem forall₂_split {α β : Type} {R : α → β → Prop} {a b : List α} {l : List β}
    (h : List.Forall₂ R (a ++ b) l) :
    ∃ la lb, List.Forall₂ R a la ∧ List.Forall₂ R b lb ∧ l = la ++ lb := by
  induction a generalizing l with
  | nil => exact ⟨[], l, .nil, h, rfl⟩
  | cons x a ih =>
    cases h with
    | cons hx h =>
      obtain ⟨la, lb, h1, h2, rfl⟩ := ih h
      exact ⟨_ :: la, lb, .cons hx h1, h2, rfl⟩

/-- When the first pairs of a well bracketed file and at most a piece of the next one can be read,
and this is loaded, no section is open there. -/
theorem load_interrupted {Img : Type} (codec : ImageCodec Img) (h0 : Header) (order : List Str)
    {names : List Str} {ps : List CodePair} (hb : Bracketed names ps) (hw : Wordly ps) {k : Nat}
    {p : CodePair} (hp : ps[k]? = some p) {s tail : Stream}
    (hs : List.Forall₂ Shown (ps.take k) s) {few nearly : Prop}
    (ht : tail = [] ∨ ∃ it, tail = [it] ∧ Torn few nearly p it) (hf : Fine false (s ++ tail))
    {d : Drawing Img} (h : (Drawing.load codec h0 order (s ++ tail)).1 = .ok d) :
    (BetweenSections (ps.take k) ∧ (tail = [] ∨ few)) ∨
    (BetweenSections (ps.take (k + 1)) ∧ nearly) := by
  obtain ⟨sections, hps, _, hsec⟩ := hb
  have hk : k < ps.length := by
    rcases Nat.lt_or_ge k ps.length with h | h
    · exact h
    · rw [List.getElem?_eq_none h] at hp; cases hp
  have htake : ps.take (k + 1) = ps.take k ++ [p] := by
    rw [List.take_add_one, hp]; rfl
  have hnone : none ∉ s := fun hm => by
    obtain ⟨p, _, hp⟩ := Shown.mem hs hm
    exact hp.not_none
  rcases bracketed_take sections hsec ps k hps hk with ⟨h1, h2, h3⟩ | ⟨a, b, h1, h2, h3⟩
  · have heof : ∀ it ∈ s, ¬ IsWord str!"EOF" it := fun it hm hi => by
      obtain ⟨p, hpm, hp⟩ := Shown.mem hs hm
      exact h2 p hpm (hp.word hi)
    rcases ht with rfl | ⟨it, rfl, htorn⟩
    · exact .inl ⟨h1, .inl rfl⟩
    · have hpc : p.code = 0 ∧ (p.value = .str str!"SECTION" ∨ p.value = .str str!"EOF") := by
        rcases h3 with h3 | h3 <;> rw [hp] at h3 <;> cases h3
        · exact ⟨rfl, .inl rfl⟩
        · exact ⟨rfl, .inr rfl⟩
      by_cases hn : it = none
      · exact .inl ⟨h1, .inr (htorn.1 hpc.1 hn)⟩
      · by_cases he : IsWord str!"EOF" it
        · obtain ⟨q, hq, hc, hv⟩ := he
          obtain ⟨_, w0, hw0, hpre, hnear⟩ := (htorn.2 q hq).2 _ hc hv (by decide)
          rcases hpc.2 with hpv | hpv
          · rw [hpv] at hw0
            cases hw0
            exact absurd hpre (by decide)
          · rw [hpv] at hw0
            cases hw0
            exact .inr ⟨.inr ⟨ps.take k, p, htake, hpc.1, .inr hpv⟩, hnear rfl⟩
        · exfalso
          refine Drawing.load_stops codec h0 order (b := []) hnone heof hn ?_ he ?_ hf d h
          · rcases it with _ | (e | q)
            · rfl
            · rfl
            · have := (htorn.2 q rfl).1 hpc.1
              simp [isComment, this]
          · intro it' hm hi
            obtain rfl := List.mem_singleton.mp hm
            obtain ⟨q, hq, hc, hv⟩ := hi
            obtain ⟨_, w0, hw0, hpre, _⟩ := (htorn.2 q hq).2 _ hc hv (by decide)
            rcases hpc.2 with hpv | hpv <;> rw [hpv] at hw0 <;> cases hw0 <;>
              exact absurd hpre (by decide)
  · rw [h1] at hs
    obtain ⟨sa, sx, hsa, hsx, rfl⟩ := forall₂_split hs
    cases hsx with
    | @cons _ x _ sb hx hsb =>
    by_cases hnear : BetweenSections (ps.take (k + 1)) ∧ nearly
    · exact .inr hnear
    exfalso
    rw [List.append_assoc, List.cons_append] at h hf
    refine Drawing.load_stops codec h0 order (fun hm => hnone (List.mem_append_left _ hm)) ?_
      (fun hn => ?_) ?_ ?_ ?_ hf d h
    · intro it hm hi
      obtain ⟨p, hpm, hp⟩ := Shown.mem hsa hm
      exact h2 p hpm (hp.word hi)
    · subst hn; exact hx.not_none
    · rcases hx with ⟨e, rfl⟩ | ⟨q, rfl, hq, _⟩
      · rfl
      · simp [isComment, hq, CodePair.newStr]
    · intro hi
      exact absurd (hx.word hi).2 (by decide)
    · intro it hm hi
      rcases List.mem_cons.mp hm with rfl | hm
      · exact absurd (hx.word hi).2 (by decide)
      · rcases List.mem_append.mp hm with hm | hm
        · obtain ⟨p, hpm, hp⟩ := Shown.mem hsb hm
          exact h3 p hpm (hp.word hi)
        · rcases ht with rfl | ⟨it', rfl, htorn⟩
          · cases hm
          · obtain rfl := List.mem_singleton.mp hm
            obtain ⟨q, hq, hc, hv⟩ := hi
            obtain ⟨hpc, w0, hw0, hpre, hn⟩ := (htorn.2 q hq).2 _ hc hv (by decide)
            obtain ⟨w, hw1, _, hw2⟩ := (hw p (List.mem_of_getElem? hp)).2 hpc
            rw [hw0] at hw1
            cases hw1
            have hw3 := hw2 hpre
            exact hnear ⟨.inr ⟨ps.take k, p, htake, hpc, .inl (by rw [hw0, hw3])⟩, hn hw3.symm⟩

end Dxf
