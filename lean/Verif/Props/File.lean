import Verif.Lemmas.Cut
import Verif.Props.Drawing

/-! Properties of loading a file. -/

namespace Dxf

variable {Img : Type}

/-! ### C36: files that are cut off -/

/-- C36: a file that ends inside a section is not loaded.  The pairs are those in `a`, the start of
a section, and those in `b`, among which there is no end of a section; the end of the file was not
reached before.  What comes before the section may be anything. -/
theorem C36 (codec : ImageCodec Img) (h0 : Header) (order : List Str) (a b : List CodePair)
    (op : CodePair) (hop : op.code = 0 ∧ op.value = .str str!"SECTION")
    (ha : ∀ p ∈ a, ¬ (p.code = 0 ∧ p.value = .str str!"EOF"))
    (hb : ∀ p ∈ b, ¬ (p.code = 0 ∧ p.value = .str str!"ENDSEC")) (d : Drawing Img) :
    (Drawing.load codec h0 order (toStream (a ++ op :: b))).1 ≠ .ok d := by
  intro h
  obtain ⟨_, _, _, _, _, h1, _⟩ := Drawing.load_inv h
  exact Drawing.readSections_cut codec h0 op hop.1 hop.2 b hb _ a _ _ _ ha h1

example : ∃ (a b : List CodePair) (op : CodePair), (op.code = 0 ∧ op.value = .str str!"SECTION") ∧
    (∀ p ∈ a, ¬ (p.code = 0 ∧ p.value = .str str!"EOF")) ∧
    (∀ p ∈ b, ¬ (p.code = 0 ∧ p.value = .str str!"ENDSEC")) ∧ a.length = 4 ∧ b.length = 3 :=
  ⟨[.newStr 0 str!"SECTION", .newStr 2 str!"TABLES", .newStr 0 str!"ENDSEC", .newStr 999 []],
    [.newStr 2 str!"ENTITIES", .newStr 0 str!"LINE", .newStr 8 str!"0"], .newStr 0 str!"SECTION",
    by decide, by decide, by decide, rfl, rfl⟩

/-- Between two sections a cut is not noticed: the mark at the end is not asked for. -/
theorem C36_between (codec : ImageCodec Img) (h0 : Header) (order : List Str) (d : Drawing Img)
    (h : Drawing.new h0 order = .ok d) :
    Drawing.load codec h0 order (toStream []) = (.ok d.clear, toStream []) := by
  unfold Drawing.load
  rw [h]
  rfl

/-! ### C37: errors in a file -/

/-- C37 for the header, the classes, the tables, the thumbnail and unknown sections: a file with an
unreadable pair is not loaded, if the sections with blocks, entities and objects have not begun
before that pair, and the end has not been reached. -/
theorem C37_partial (codec : ImageCodec Img) (h0 : Header) (order : List Str) (a : List CodePair)
    (e : DxfErr) (he : e ≠ .outOfFuel) (rest : Stream)
    (hrest : ∀ it ∈ rest, it ≠ some (.error .outOfFuel))
    (ha : ∀ p ∈ a, ¬ (p.code = 0 ∧ p.value = .str str!"EOF"))
    (hs : ∀ p ∈ a, p.code = 2 → p.value ≠ .str str!"BLOCKS" ∧ p.value ≠ .str str!"ENTITIES" ∧
      p.value ≠ .str str!"OBJECTS") (d : Drawing Img) :
    (Drawing.load codec h0 order (toStream a ++ some (.error e) :: rest)).1 ≠ .ok d := by
  intro h
  obtain ⟨_, _, _, _, _, h1, _⟩ := Drawing.load_inv h
  exact Drawing.readSections_error codec h0 e he rest (fun it hm => ⟨hrest it hm, by simp⟩) _ a _ _
    _ ha hs h1

example : ∃ a : List CodePair, (∀ p ∈ a, ¬ (p.code = 0 ∧ p.value = .str str!"EOF")) ∧
    (∀ p ∈ a, p.code = 2 → p.value ≠ .str str!"BLOCKS" ∧ p.value ≠ .str str!"ENTITIES" ∧
      p.value ≠ .str str!"OBJECTS") ∧ a.length = 4 :=
  ⟨[.newStr 0 str!"SECTION", .newStr 2 str!"HEADER", .newStr 9 str!"$ACADVER",
    .newStr 1 str!"AC1032"], by decide, by decide, rfl⟩

/-- C37 fails in the section with the entities: an error that is met while the last entity is read
is taken for the end of the section, and that entity is dropped. -/
theorem C37_entities (d : Drawing Img) (e : DxfErr) (he : e ≠ .panic ∧ e ≠ .outOfFuel)
    (rest : Stream) :
    d.readEntitySection (toStream [.newStr 0 str!"LINE", .newStr 8 str!"0"] ++ some (.error e) ::
      toStream [.newStr 0 str!"ENDSEC"] ++ rest) = (.ok d, toStream [.newStr 0 str!"ENDSEC"] ++ rest) := by
  obtain ⟨h1, h2⟩ := he
  cases e <;> first | rfl | contradiction

/-- The same for objects. -/
theorem C37_objects (d : Drawing Img) (e : DxfErr) (he : e ≠ .panic ∧ e ≠ .outOfFuel)
    (rest : Stream) :
    d.readObjectSection (toStream [.newStr 0 str!"PLACEHOLDER"] ++ some (.error e) ::
      toStream [.newStr 0 str!"ENDSEC"] ++ rest) = (.ok d, toStream [.newStr 0 str!"ENDSEC"] ++ rest) := by
  obtain ⟨h1, h2⟩ := he
  cases e <;> first | rfl | contradiction

/-- A whole file with an unreadable pair that is loaded without a complaint, as a drawing without
entities. -/
theorem C37_violated (codec : ImageCodec Img) (h0 : Header) (order : List Str) (d : Drawing Img)
    (h : Drawing.new h0 order = .ok d) (e : DxfErr) (he : e ≠ .panic ∧ e ≠ .outOfFuel) :
    (Drawing.load codec h0 order (toStream [.newStr 0 str!"SECTION", .newStr 2 str!"ENTITIES",
      .newStr 0 str!"LINE", .newStr 8 str!"0"] ++ some (.error e) ::
      toStream [.newStr 0 str!"ENDSEC", .newStr 0 str!"EOF"])).1 = .ok d.clear := by
  unfold Drawing.load
  rw [h]
  obtain ⟨h1, h2⟩ := he
  cases e <;> first | rfl | contradiction

/-! ### C45: loading comes to an end -/

/-- C45 for files without blocks and without `SectionSettings` objects: loading ends with a drawing
or an error.  (`outOfFuel` is the result of a loop that makes more rounds than there are pairs
left.) -/
theorem C45_load_partial (codec : ImageCodec Img) (hc : ∀ b, codec.load b ≠ .error .outOfFuel)
    (h0 : Header) (order : List Str) (s : Stream)
    (hs : ∀ it ∈ s, it ≠ some (.error .outOfFuel) ∧ ∀ p, it = some (.ok p) →
      ¬ (p.code = 0 ∧ p.value = .str str!"SECTIONSETTINGS") ∧
      ¬ (p.code = 2 ∧ p.value = .str str!"BLOCKS")) :
    (Drawing.load codec h0 order s).1 ≠ .error .outOfFuel :=
  Drawing.load_nice codec hc h0 order s fun it hm => ⟨(hs it hm).1, fun _ p hp ht => by
    obtain ⟨h1, h2⟩ := (hs it hm).2 p hp
    exact ht.elim h1 h2⟩

example : ∃ s : Stream, (∀ it ∈ s, it ≠ some (.error .outOfFuel) ∧ ∀ p, it = some (.ok p) →
    ¬ (p.code = 0 ∧ p.value = .str str!"SECTIONSETTINGS") ∧
    ¬ (p.code = 2 ∧ p.value = .str str!"BLOCKS")) ∧ s.length = 6 := by
  refine ⟨toStream [.newStr 0 str!"SECTION", .newStr 2 str!"ENTITIES", .newStr 0 str!"LINE",
    .newStr 0 str!"ENDSEC", .newStr 0 str!"EOF"] ++ [some (.error .unexpectedEndOfInput)], ?_, rfl⟩
  intro it hm
  simp only [toStream, List.map_cons, List.map_nil, List.cons_append, List.nil_append,
    List.mem_cons, List.not_mem_nil, or_false] at hm
  rcases hm with rfl | rfl | rfl | rfl | rfl | rfl <;> refine ⟨by simp, ?_⟩ <;> intro p hp <;>
    cases hp <;> decide

end Dxf
