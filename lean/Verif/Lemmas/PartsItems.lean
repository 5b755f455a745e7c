import Verif.Lemmas.Parts
import Verif.Lemmas.Collect

/-! Sections with classes, entities or objects, and tables, in parts. -/

namespace Dxf

/-! ### Lists that are read item by item -/

/-- What a round adds to a list does not depend on the list. -/
def Adds {α : Type} (g : List α → Rd (List α)) : Prop :=
  ∀ xs ys s t, g xs s = (.ok ys, t) → ∃ zs, ys = xs ++ zs ∧ ∀ ws, g ws s = (.ok (ws ++ zs), t)

theorem Steps.shift {α : Type} {g : List α → Rd (List α)} (hg : Adds g) {xs ys : List α}
    {s t : Stream} (h : Steps g xs s ys t) :
    ∃ zs, ys = xs ++ zs ∧ ∀ ws, Steps g ws s (ws ++ zs) t := by
  induction h with
  | here => exact ⟨[], by simp, fun ws => by rw [List.append_nil]; exact .here⟩
  | next h _ ih =>
    obtain ⟨zs, rfl, h1⟩ := hg _ _ _ _ h
    obtain ⟨zs', rfl, h2⟩ := ih
    exact ⟨zs ++ zs', by simp, fun ws => .next (h1 ws) (by rw [← List.append_assoc]; exact h2 _)⟩

theorem Steps.from {α : Type} {g : List α → Rd (List α)} (hg : Adds g) {ys : List α}
    {s t : Stream} (h : Steps g [] s ys t) (ws : List α) : Steps g ws s (ws ++ ys) t := by
  obtain ⟨zs, e, h1⟩ := Steps.shift hg h
  rw [e, List.nil_append]
  exact h1 ws

theorem oneMore_adds {α : Type} (nx : Rd (Option α)) : Adds (oneMore nx) := by
  intro xs ys s t h
  obtain ⟨x, h1, rfl⟩ := oneMore_inv h
  refine ⟨[x], rfl, fun ws => ?_⟩
  unfold oneMore
  exact Rd.bind_ok h1

theorem oneClass_adds (v : Version) : Adds (oneClass v) := by
  intro xs ys s t h
  unfold oneClass at h ⊢
  obtain ⟨p, y, h1, h2⟩ := Rd.bind_inv h
  by_cases hp : p.code = 0
  · rw [if_pos hp] at h2
    obtain ⟨n, y', h3, h4⟩ := Rd.bind_inv h2
    by_cases hn : n = str!"ENDSEC"
    · rw [if_pos hn] at h4; cases h4
    · rw [if_neg hn] at h4
      obtain ⟨c, y2, h5, h6⟩ := Rd.bind_inv h4
      cases h6
      refine ⟨[c], rfl, fun ws => ?_⟩
      refine (Rd.bind_ok h1).trans ?_
      rw [if_pos hp]
      refine (Rd.bind_ok h3).trans ?_
      rw [if_neg hn]
      exact Rd.bind_ok h5
  · rw [if_neg hp] at h2
    cases h2
    refine ⟨[], by simp, fun ws => ?_⟩
    refine (Rd.bind_ok h1).trans ?_
    rw [if_neg hp, List.append_nil]
    rfl

theorem oneEntry_adds (K : TableKind) : Adds (oneEntry K) := by
  intro xs ys s t h
  unfold oneEntry at h ⊢
  obtain ⟨p, y, h1, h2⟩ := Rd.bind_inv h
  by_cases hp : p.code = 0
  · rw [if_pos hp] at h2
    by_cases hn : p.value = .str K.typeString
    · rw [if_pos hn] at h2
      obtain ⟨c, y2, h5, h6⟩ := Rd.bind_inv h2
      cases h6
      refine ⟨[c], rfl, fun ws => ?_⟩
      refine (Rd.bind_ok h1).trans ?_
      rw [if_pos hp, if_pos hn]
      exact Rd.bind_ok h5
    · rw [if_neg hn] at h2; cases h2
  · rw [if_neg hp] at h2
    cases h2
    refine ⟨[], by simp, fun ws => ?_⟩
    refine (Rd.bind_ok h1).trans ?_
    rw [if_neg hp, List.append_nil]
    rfl

/-! ### Entities and objects one by one -/

theorem nextEntity_less {s t : Stream} {x : Flat} (hs : Fine false s)
    (h : nextEntity s = (.ok (some x), t)) : t <:+ s ∧ t.length < s.length := by
  obtain ⟨c, p, n, y, _, _, _, _, rfl, h1⟩ := readEntity_inv (nextEntity_some.mp h)
  have hy : y <:+ toStream c ++ some (.ok p) :: y :=
    (List.suffix_cons _ _).trans (List.suffix_append _ _)
  have hl : ∀ fuel, Loc (entityBody fuel n) := by
    intro fuel
    unfold entityBody
    cases EName.ofType n with
    | none => exact .bind swallowItem_loc fun _ => readEntity_loc fuel
    | some k =>
      refine .bind (item_loc _ k.step_loc _) fun st => ?_
      cases k.kind.sub st.1 with
      | none => exact readEntity_loc fuel
      | some m => exact .pure
  have h2 := congrArg Prod.snd h1 ▸ (hl _).suffix y (hs.suffix hy)
  dsimp only at h2
  refine ⟨h2.trans hy, ?_⟩
  have := h2.length_le
  simp only [List.length_append, List.length_cons]
  omega

theorem nextObject_less {s t : Stream} {x : Object} (hs : Fine false s)
    (h : nextObject s = (.ok (some x), t)) : t <:+ s ∧ t.length < s.length := by
  obtain ⟨c, p, n, y, _, _, _, _, rfl, h1⟩ := readObject_inv (nextObject_take.mp h)
  have hy : y <:+ toStream c ++ some (.ok p) :: y :=
    (List.suffix_cons _ _).trans (List.suffix_append _ _)
  have hl : ∀ fuel, Loc (objectBody fuel n) := by
    intro fuel
    unfold objectBody
    cases OName.ofType n with
    | none => exact .bind swallowItem_loc fun _ => readObject_loc fuel
    | some k => exact .bind (item_loc _ k.step_loc _) fun st => .pure
  have h2 := congrArg Prod.snd h1 ▸ (hl _).suffix y (hs.suffix hy)
  dsimp only at h2
  refine ⟨h2.trans hy, ?_⟩
  have := h2.length_le
  simp only [List.length_append, List.length_cons]
  omega

theorem oneMore_passes {α : Type} {nx : Rd (Option α)} (hn : NextOk nx)
    (hl : ∀ s x t, Fine false s → nx s = (.ok (some x), t) → t <:+ s ∧ t.length < s.length) :
    Passes (· = 0) (oneMore nx) := by
  refine ⟨fun st s st' t hs h => ?_, fun st st' u v q z q' z' hfi hq hq' hlen h => ?_⟩
  · obtain ⟨x, h1, _⟩ := oneMore_inv h
    exact hl _ _ _ hs h1
  · obtain ⟨x, h1, rfl⟩ := oneMore_inv h
    unfold oneMore
    exact Rd.bind_ok (hn.pass x u v q z q' z' hfi hq hq' hlen h1)

theorem oneEntity_passes : Passes (· = 0) oneEntity :=
  oneMore_passes nextEntity_ok fun _ _ _ hs h => nextEntity_less hs h

theorem oneObject_passes : Passes (· = 0) oneObject :=
  oneMore_passes nextObject_ok fun _ _ _ hs h => nextObject_less hs h

theorem nextEntity_endsec {p : CodePair} (hp : p.code = 0 ∧ p.value = .str str!"ENDSEC")
    (t : Stream) : nextEntity (some (.ok p) :: t) = (.ok none, some (.ok p) :: t) := by
  have : Rd.withFuel readEntity (some (.ok p) :: t) = (.ok none, some (.ok p) :: t) := by
    rw [Rd.run_withFuel, List.length_cons]
    unfold readEntity
    refine (Rd.bind_ok (Rd.next_cons (by omega) t)).trans ?_
    rw [if_pos hp.1]
    refine (Rd.bind_ok (m := Rd.lift p.assertString) (a := str!"ENDSEC") (s := _) (s' := _)
      (by unfold CodePair.assertString; rw [hp.2]; rfl)).trans ?_
    rw [if_pos (.inl rfl)]
    rfl
  unfold nextEntity
  rw [this]

theorem nextObject_endsec {p : CodePair} (hp : p.code = 0 ∧ p.value = .str str!"ENDSEC")
    (t : Stream) : nextObject (some (.ok p) :: t) = (.ok none, some (.ok p) :: t) := by
  have : Rd.withFuel readObject (some (.ok p) :: t) = (.ok none, some (.ok p) :: t) := by
    rw [Rd.run_withFuel, List.length_cons]
    unfold readObject
    refine (Rd.bind_ok (Rd.next_cons (by omega) t)).trans ?_
    rw [if_pos hp.1]
    refine (Rd.bind_ok (m := Rd.lift p.assertString) (a := str!"ENDSEC") (s := _) (s' := _)
      (by unfold CodePair.assertString; rw [hp.2]; rfl)).trans ?_
    rw [if_pos (.inl rfl)]
    rfl
  unfold nextObject
  rw [this]

/-! ### Entities -/

theorem feeds_of {xs ys : List Flat} {s t : Stream} (h : Steps oneEntity xs s ys t)
    (hs : Fine false s) (ht : nextEntity t = (.ok none, t)) :
    ∃ zs, ys = xs ++ zs ∧ Feeds s zs t := by
  induction h with
  | here => exact ⟨[], by simp, .nil ht⟩
  | next h _ ih =>
    obtain ⟨x, h1, rfl⟩ := oneMore_inv h
    obtain ⟨h2, h3⟩ := nextEntity_less hs h1
    obtain ⟨zs, rfl, h4⟩ := ih (hs.suffix h2) ht
    exact ⟨x :: zs, by simp, .cons h1 h3 h4⟩

theorem readEntities_run {xs : List Flat} {b e : List CodePair} {cl : CodePair}
    (hcl : cl.code = 0 ∧ cl.value = .str str!"ENDSEC")
    (h : Steps oneEntity [] (toStream (b ++ cl :: e)) xs (toStream (cl :: e))) :
    ∃ n, xs.length < n ∧ readEntities (toStream (b ++ cl :: e)) =
      (.ok (collect n xs), toStream (cl :: e)) := by
  obtain ⟨zs, rfl, hf⟩ := feeds_of h (fine_toStream _) (nextEntity_endsec hcl _)
  exact readEntities_eq hf

theorem collect_more : ∀ (n m : Nat) (xs : List Flat), xs.length < n → xs.length < m →
    collect n xs = collect m xs := by
  intro n
  induction n with
  | zero => intro m xs h; omega
  | succ n ih =>
    intro m xs h h'
    obtain ⟨m, rfl⟩ : ∃ k, m = k + 1 := ⟨m - 1, by omega⟩
    cases xs with
    | nil => rfl
    | cons x fs =>
      simp only [List.length_cons] at h h'
      have l1 := splitMText_length fs
      have l2 := splitAtts_length fs
      have l3 := splitVerts_length fs
      have l4 := dropSeqend_length (splitAtts fs).2
      have l5 := dropSeqend_length (splitVerts fs).2
      simp only [collect]
      rw [ih m (splitMText fs).2 (by omega) (by omega),
        ih m (dropSeqend (splitAtts fs).2) (by omega) (by omega),
        ih m (dropSeqend (splitVerts fs).2) (by omega) (by omega), ih m fs (by omega) (by omega)]

section Append

variable {ys : List Flat}

theorem splitAtts_append (h : ∀ y ∈ ys.head?, y.kind ≠ .attribute) (fs : List Flat) :
    splitAtts (fs ++ ys) = ((splitAtts fs).1, (splitAtts fs).2 ++ ys) := by
  induction fs with
  | nil =>
    cases ys with
    | nil => rfl
    | cons y ys =>
      obtain ⟨k, n, e⟩ := y
      have := h _ rfl
      dsimp only at this
      cases k
      case «attribute» => exact absurd rfl this
      all_goals rfl
  | cons x fs ih =>
    obtain ⟨k, n, e⟩ := x
    cases k
    case «attribute» => simp only [List.cons_append, splitAtts, ih]
    all_goals rfl

theorem splitVerts_append (h : ∀ y ∈ ys.head?, y.kind ≠ .vertex) (fs : List Flat) :
    splitVerts (fs ++ ys) = ((splitVerts fs).1, (splitVerts fs).2 ++ ys) := by
  induction fs with
  | nil =>
    cases ys with
    | nil => rfl
    | cons y ys =>
      obtain ⟨k, n, e⟩ := y
      have := h _ rfl
      dsimp only at this
      cases k
      case vertex => exact absurd rfl this
      all_goals rfl
  | cons x fs ih =>
    obtain ⟨k, n, e⟩ := x
    cases k
    case vertex => simp only [List.cons_append, splitVerts, ih]
    all_goals rfl

theorem dropSeqend_append (h : ∀ y ∈ ys.head?, y.kind ≠ .seqend) (fs : List Flat) :
    dropSeqend (fs ++ ys) = dropSeqend fs ++ ys := by
  cases fs with
  | nil =>
    cases ys with
    | nil => rfl
    | cons y ys =>
      simp only [List.nil_append, dropSeqend]
      rw [if_neg (h _ rfl)]
  | cons x fs =>
    simp only [List.cons_append, dropSeqend]
    split <;> rfl

theorem splitMText_append {fs : List Flat} (h : fs = [] → ∀ y ∈ ys.head?, y.kind ≠ .mText) :
    splitMText (fs ++ ys) = ((splitMText fs).1, (splitMText fs).2 ++ ys) := by
  cases fs with
  | nil =>
    cases ys with
    | nil => rfl
    | cons y ys =>
      obtain ⟨k, n, e⟩ := y
      have := h rfl _ rfl
      dsimp only at this
      cases k
      case mText => exact absurd rfl this
      all_goals rfl
  | cons x fs =>
    obtain ⟨k, n, e⟩ := x
    cases k <;> rfl

/-- The rest after something has been taken from the front has the same last element. -/
theorem getLast_of_suffix {fs gs : List Flat} (h : gs <:+ fs) {x : Flat} (hx : x ∈ gs.getLast?) :
    x ∈ fs.getLast? := by
  obtain ⟨u, rfl⟩ := h
  cases gs with
  | nil => cases hx
  | cons g gs => rw [List.getLast?_append_of_ne_nil _ (by simp)]; exact hx

theorem splitAtts_suffix (fs : List Flat) : (splitAtts fs).2 <:+ fs := by
  induction fs with
  | nil => exact List.suffix_refl _
  | cons x fs ih =>
    obtain ⟨k, n, e⟩ := x
    cases k
    case «attribute» => exact ih.trans (List.suffix_cons _ _)
    all_goals exact List.suffix_refl _

theorem splitVerts_suffix (fs : List Flat) : (splitVerts fs).2 <:+ fs := by
  induction fs with
  | nil => exact List.suffix_refl _
  | cons x fs ih =>
    obtain ⟨k, n, e⟩ := x
    cases k
    case vertex => exact ih.trans (List.suffix_cons _ _)
    all_goals exact List.suffix_refl _

theorem dropSeqend_suffix (fs : List Flat) : dropSeqend fs <:+ fs := by
  cases fs with
  | nil => exact List.suffix_refl _
  | cons x fs =>
    simp only [dropSeqend]
    split
    · exact List.suffix_cons _ _
    · exact List.suffix_refl _

theorem splitMText_suffix (fs : List Flat) : (splitMText fs).2 <:+ fs := by
  cases fs with
  | nil => exact List.suffix_refl _
  | cons x fs =>
    obtain ⟨k, n, e⟩ := x
    cases k
    case mText => exact List.suffix_cons _ _
    all_goals exact List.suffix_refl _

theorem Separate.suffix {xs zs : List Flat} (h : Separate xs ys) (hz : zs <:+ xs) : Separate zs ys :=
  fun y hy => ⟨(h y hy).1, (h y hy).2.1, (h y hy).2.2.1, fun hm x hx =>
    (h y hy).2.2.2 hm x (getLast_of_suffix hz hx)⟩

theorem collect_append (n m : Nat) : ∀ xs : List Flat, Separate xs ys → (xs ++ ys).length < n →
    ys.length < m → collect n (xs ++ ys) = collect n xs ++ collect m ys := by
  induction n with
  | zero => intro xs _ h; omega
  | succ n ih =>
    intro xs hs h h'
    cases xs with
    | nil => exact collect_more _ _ _ h h'
    | cons x fs =>
      have l1 := splitMText_length fs
      have l2 := splitAtts_length fs
      have l3 := splitVerts_length fs
      have l4 := dropSeqend_length (splitAtts fs).2
      have l5 := dropSeqend_length (splitVerts fs).2
      simp only [List.cons_append, List.length_cons, List.length_append] at h
      have hfs := hs.suffix (List.suffix_cons x fs)
      simp only [List.cons_append, collect]
      by_cases h1 : x.kind = .attribute ∨ x.kind = .attributeDefinition
      · rw [if_pos h1, if_pos h1, splitMText_append (ys := ys) (fs := fs) (by
          rintro rfl y hy hk
          have := (hs y hy).2.2.2 hk x rfl
          rcases h1 with h1 | h1
          · exact this.1 h1
          · exact this.2 h1)]
        dsimp only
        rw [ih _ (hfs.suffix (splitMText_suffix fs)) (by simp only [List.length_append]; omega) h']
        rfl
      · rw [if_neg h1, if_neg h1]
        rw [splitAtts_append (fun y hy => (hs y hy).2.1), splitVerts_append (fun y hy => (hs y hy).1)]
        dsimp only
        rw [dropSeqend_append (fun y hy => (hs y hy).2.2.1),
          dropSeqend_append (fun y hy => (hs y hy).2.2.1)]
        rw [ih _ (hfs.suffix ((dropSeqend_suffix _).trans (splitAtts_suffix fs)))
            (by simp only [List.length_append]; omega) h',
          ih _ (hfs.suffix ((dropSeqend_suffix _).trans (splitVerts_suffix fs)))
            (by simp only [List.length_append]; omega) h',
          ih _ hfs (by simp only [List.length_append]; omega) h']
        split_ifs <;> rfl

end Append

end Dxf
