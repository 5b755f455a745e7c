import Verif.Lemmas.Collect
import Verif.Props.Small

/-! C26: attached entities go to the right parent. -/

namespace Dxf

/-- C26: reading what was written for a list of entities gives the entities of the kinds the
version supports, in order, each with the entities attached to it, and stops before the end of the
section or block.

The full claim is false of the code: from R13 on, the attributes of an insert go astray
(`C26_scattered`), so inserts with attributes are excluded there (`Entity.Whole`).  Also a rotated
dimension is dropped before R13 (`C21_rotated_old`), and extended data is lost where entities are
attached (`Entity.ownXData`). -/
theorem C26_partial (es : List Entity) (v : Version) (writeHandles : Bool)
    (hp : ∀ e ∈ es, e.toFlat.Proper) (ho : ∀ e ∈ es, ¬ e.toFlat.OldRotated v)
    (hext : ∀ e ∈ es, ExtGroup.AllPlain e.entry.ext) (hw : ∀ e ∈ es, e.Whole v)
    (mark : Str) (hm : mark = str!"ENDSEC" ∨ mark = str!"ENDBLK") (rest : Stream) :
    ∃ es', List.Forall₂ (Entity.Restored v writeHandles)
        (es.filter fun e => e.kind.supported v) es' ∧
      readEntities (toStream (es.flatMap (Entity.pairs v writeHandles) ++ [.newStr 0 mark]) ++
        rest) = (.ok es', toStream [.newStr 0 mark] ++ rest) := by
  obtain ⟨cs, hj, hf⟩ := Feeds.entities v writeHandles es hp ho hext
    (rest := toStream [.newStr 0 mark] ++ rest) ⟨_, _, rfl, rfl⟩ (.nil (nextEntity_end hm))
  rw [List.append_nil] at hf
  obtain ⟨fuel, hl, hr⟩ := readEntities_eq hf
  refine ⟨_, collect_echo hj hw fuel hl, ?_⟩
  rw [toStream_append, List.append_assoc, hr]

/-- The children of the entities are those of the entities written, one for one and in order. -/
theorem C26_vertices (v : Version) (writeHandles : Bool) (e e' : Entity) (hk : e.kind = .polyline)
    (h : e.Restored v writeHandles e') : e'.extra.verts.length = e.extra.verts.length := by
  obtain ⟨⟨k, n, en⟩, x⟩ := e
  subst hk
  obtain ⟨b, _, x', ⟨vs, hvs, rfl⟩, rfl⟩ := h
  exact hvs.length_eq.symm

theorem C26_attributes (v : Version) (writeHandles : Bool) (e e' : Entity) (hk : e.kind = .insert)
    (h : e.Restored v writeHandles e') : e'.extra.atts.length = e.extra.atts.length := by
  obtain ⟨⟨k, n, en⟩, x⟩ := e
  subst hk
  obtain ⟨b, _, x', ⟨vs, hvs, rfl⟩, rfl⟩ := h
  exact hvs.length_eq.symm

/-- What is written of a vertex: only its flags are changed.  Flag 32 (vertex of a 3D polyline) is
flag 8 of the polyline (3D polyline).  If the vertex names no other vertices, flag 64 (vertex of a
3D polygon mesh) is flag 16 of the polyline (3D polygon mesh).  Other flags stay. -/
theorem C26_vertex_flags (pf : I32) (r : Rec EName.vertex.decls) :
    (∀ i, i ≠ 22 → Vert.adjust pf r i = r i) ∧
    getFlag (Vert.adjust pf r 22 : I32) 32#32 = getFlag pf 8#32 ∧
    ((r 24 : I32) = 0#32 ∧ (r 25 : I32) = 0#32 ∧ (r 26 : I32) = 0#32 ∧ (r 27 : I32) = 0#32 →
      getFlag (Vert.adjust pf r 22 : I32) 64#32 = getFlag pf 16#32) ∧
    (¬ ((r 24 : I32) = 0#32 ∧ (r 25 : I32) = 0#32 ∧ (r 26 : I32) = 0#32 ∧ (r 27 : I32) = 0#32) →
      getFlag (Vert.adjust pf r 22 : I32) 64#32 = getFlag (r 22 : I32) 64#32) ∧
    ∀ m : I32, m &&& 32#32 = 0 → m &&& 64#32 = 0 →
      getFlag (Vert.adjust pf r 22 : I32) m = getFlag (r 22 : I32) m := by
  have key : ∀ a b c d : I32, ∀ w : I32,
      let f := setFlag w 32#32 (getFlag pf 8#32)
      let g : I32 := bif (a == 0#32) && (b == 0#32) && (c == 0#32) && (d == 0#32)
        then setFlag f 64#32 (getFlag pf 16#32) else f
      getFlag g 32#32 = getFlag pf 8#32 ∧
      (a = 0#32 ∧ b = 0#32 ∧ c = 0#32 ∧ d = 0#32 → getFlag g 64#32 = getFlag pf 16#32) ∧
      (¬ (a = 0#32 ∧ b = 0#32 ∧ c = 0#32 ∧ d = 0#32) → getFlag g 64#32 = getFlag w 64#32) ∧
      ∀ m : I32, m &&& 32#32 = 0 → m &&& 64#32 = 0 → getFlag g m = getFlag w m := by
    intro a b c d w f g
    by_cases h : a = 0#32 ∧ b = 0#32 ∧ c = 0#32 ∧ d = 0#32
    · have hg : g = setFlag f 64#32 (getFlag pf 16#32) := by
        simp [g, h.1, h.2.1, h.2.2.1, h.2.2.2]
      rw [hg]
      refine ⟨?_, fun _ => C32_set_get _ _ _ (by decide), fun hc => absurd h hc, fun m h1 h2 => ?_⟩
      · rw [C32_independent _ _ _ _ (by decide)]
        exact C32_set_get _ _ _ (by decide)
      · rw [C32_independent _ _ _ _ (by rw [BitVec.and_comm]; exact h2),
          C32_independent _ _ _ _ (by rw [BitVec.and_comm]; exact h1)]
    · have hg : g = f := by
        simp only [g]
        rw [cond_eq_ite, if_neg]
        simpa [and_assoc] using h
      rw [hg]
      refine ⟨C32_set_get _ _ _ (by decide), fun hc => absurd hc h,
        fun _ => C32_independent _ _ _ _ (by decide), fun m h1 h2 => ?_⟩
      exact C32_independent _ _ _ _ (by rw [BitVec.and_comm]; exact h1)
  exact ⟨fun i hi => Rec.set_ne _ _ hi, key (r 24) (r 25) (r 26) (r 27) (r 22)⟩

/-- Satisfiable: an insert with two attributes and a polyline with three vertices between circles,
in R12. -/
example : ∃ es : List Entity, es.length = 4 ∧ (∀ e ∈ es, e.toFlat.Proper) ∧
    (∀ e ∈ es, ¬ e.toFlat.OldRotated .r12) ∧ (∀ e ∈ es, ExtGroup.AllPlain e.entry.ext) ∧
    (∀ e ∈ es, e.Whole .r12) ∧ es.map (·.extra.atts.length) = [0, 2, 0, 0] ∧
    es.map (·.extra.verts.length) = [0, 0, 3, 0] ∧ ∀ e ∈ es, e.kind.supported .r12 = true :=
  let att : Att := ⟨Rec.dflt _, Rec.dflt _, 5#64⟩
  let vert : Vert := ⟨Rec.dflt _, 6#64⟩
  ⟨[⟨⟨.circle, 0, Entry.dflt _⟩, Extra.dflt⟩,
    ⟨⟨.insert, 0, Entry.dflt _⟩, { Extra.dflt with atts := [att, att] }⟩,
    ⟨⟨.polyline, 0, Entry.dflt _⟩, { Extra.dflt with verts := [vert, vert, vert] }⟩,
    ⟨⟨.circle, 0, Entry.dflt _⟩, Extra.dflt⟩], rfl,
    by simp [Flat.Proper], by simp [Flat.OldRotated], by simp [ExtGroup.AllPlain, Entry.dflt],
    by simp [Entity.Whole, EName.supported, EName.kind, show ¬ Version.r13 ≤ Version.r12 by decide],
    rfl, rfl, by simp [EName.supported, EName.kind]⟩

/-! ### What goes wrong -/

theorem collect_plain {k : EName} (hk : k = .seqend ∨ k = .mText) (i : Nat) (e : Entry k.decls)
    (fs : List Flat) (n : Nat) :
    collect (n + 1) (⟨k, i, e⟩ :: fs) = ⟨⟨k, i, e⟩, Extra.dflt⟩ :: collect n fs := by
  rw [collect, if_neg (by rcases hk with rfl | rfl <;> simp),
    if_neg (by rw [wantsAtts_other (by rcases hk with rfl | rfl <;> simp)]; simp),
    if_neg (by rcases hk with rfl | rfl <;> simp)]

theorem collect_scattered {v : Version} {wh : Bool} (hs : EName.mText.supported v = true)
    {as : List Att} {cs : List Flat} (h : Joined (Att.Echo v wh) as cs)
    (s : Entry EName.seqend.decls) (n : Nat) (hn : cs.length + 1 < n) :
    (collect n (cs ++ [⟨.seqend, 0, s⟩])).map (·.kind) =
      List.replicate as.length .attribute ++ [.seqend] := by
  induction h generalizing n with
  | nil =>
    obtain ⟨n, rfl⟩ : ∃ m, n = m + 2 := ⟨n - 2, by simp at hn; omega⟩
    rw [List.nil_append, collect_plain (.inl rfl)]
    rfl
  | cons ha _ ih =>
    obtain ⟨b, _, hc⟩ := ha
    rw [if_pos hs] at hc
    obtain ⟨m, _, rfl⟩ := hc
    obtain ⟨n, rfl⟩ : ∃ m, n = m + 1 := ⟨n - 1, by omega⟩
    have := ih n (by simp at hn; omega)
    rw [List.cons_append, List.cons_append, collect, if_pos (.inl rfl)]
    simp only [List.nil_append, splitMText, withMText, List.map_cons, List.length_cons, List.replicate_succ,
      List.cons_append, this]

/-- C26 fails: from R13 on, an insert with attributes comes back as an insert with only the first
of its attributes, followed by a text, the other attributes and an end mark as entities of their
own. -/
theorem C26_scattered (e : Entity) (hk : e.kind = .insert) (hsub : e.sub = 0) (a : Att)
    (as : List Att) (ha : e.extra.atts = a :: as) (v : Version) (hv : .r13 ≤ v)
    (writeHandles : Bool) (hext : ExtGroup.AllPlain e.entry.ext) (rest : Stream) :
    ∃ e' es', readEntities (toStream (e.pairs v writeHandles ++ [.newStr 0 str!"ENDSEC"]) ++
        rest) = (.ok (e' :: es'), toStream [.newStr 0 str!"ENDSEC"] ++ rest) ∧
      e'.kind = .insert ∧ e'.extra.atts.length = 1 ∧
      es'.map (·.kind) = .mText :: List.replicate as.length .attribute ++ [.seqend] := by
  have hs : EName.mText.supported v = true := by
    simp [EName.supported, EName.kind, hv]
  obtain ⟨cs, he, hf⟩ := Feeds.entity v writeHandles e
    (by unfold Flat.Proper; rw [if_neg (by rw [hk]; decide)]; exact hsub)
    (by rintro ⟨h, _⟩; rw [hk] at h; cases h) hext
    (rest := toStream [.newStr 0 str!"ENDSEC"] ++ rest) ⟨_, _, rfl, rfl⟩
    (.nil (nextEntity_end (.inl rfl)))
  rw [List.append_nil] at hf
  obtain ⟨fuel, hl, hr⟩ := readEntities_eq hf
  rw [toStream_append, List.append_assoc, hr]
  obtain ⟨⟨k, n, en⟩, x⟩ := e
  subst hk
  simp only at ha
  unfold Entity.Echo at he
  rw [if_pos (show EName.insert.supported v = true from rfl)] at he
  obtain ⟨b, ds, _, hwant, hx, rfl⟩ := he
  have hw := hwant.mpr ⟨rfl, by rw [ha]; simp⟩
  simp only [Extra.Echo, ha, reduceCtorEq, if_false] at hx
  obtain ⟨cs, s, hj, rfl⟩ := hx
  obtain ⟨fuel, rfl⟩ : ∃ m, fuel = m + 2 := ⟨fuel - 2, by simp at hl; omega⟩
  cases hj with
  | cons h1 hj =>
    obtain ⟨c, _, hc⟩ := h1
    rw [if_pos hs] at hc
    obtain ⟨m, _, rfl⟩ := hc
    rename_i ds'
    have := collect_scattered hs hj s fuel (by simp at hl; omega)
    rw [collect, if_neg (by simp), if_pos hw]
    refine ⟨_, _, rfl, rfl, rfl, ?_⟩
    simp only [List.cons_append, List.nil_append, splitAtts, dropSeqend, reduceCtorEq, if_false]
    rw [collect_plain (.inr rfl), List.map_cons, this]

/-- Satisfiable: two attributes in R2018. -/
example : ∃ (e : Entity) (a : Att) (as : List Att), e.kind = .insert ∧ e.sub = 0 ∧
    e.extra.atts = a :: as ∧ as.length = 1 ∧ Version.r13 ≤ .r2018 ∧
    ExtGroup.AllPlain e.entry.ext :=
  let att : Att := ⟨Rec.dflt _, Rec.dflt _, 5#64⟩
  ⟨⟨⟨.insert, 0, Entry.dflt _⟩, { Extra.dflt with atts := [att, att] }⟩, att, [att], rfl, rfl, rfl,
    rfl, by decide, by simp [ExtGroup.AllPlain, Entry.dflt]⟩

end Dxf
