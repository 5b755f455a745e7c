import Verif.Lemmas.InsertPlaces

/-! C27: unknown content is skipped without side effects.

In every theorem loading gives the same result, be it a drawing or an error, with and without the
inserted pairs.  Loading that does not come to an end is excluded (see C45). -/

namespace Dxf

open Drawing

variable {Img : Type} {codec : ImageCodec Img} {h0 : Header} {order : List Str}

/-- An unknown section between sections. -/
theorem C27_section {a b U : List CodePair} {q : CodePair} {d : Drawing Img}
    (h : AtSection codec h0 order a (q :: b) d) (hU : UnknownSection U)
    (hr : (load codec h0 order (toStream (a ++ q :: b))).1 ≠ .error .outOfFuel) :
    (load codec h0 order (toStream (a ++ U ++ q :: b))).1 =
      (load codec h0 order (toStream (a ++ q :: b))).1 := by
  have hf := fine_toStream (a ++ q :: b)
  have := load_section codec h0 order (u := toStream a) (q := q) (z := toStream b) hU (d := d)
    (by simpa [toStream] using hf) (fun d0 hn => by simpa [toStream] using h d0 hn)
  have e1 : toStream a ++ some (.ok q) :: toStream b = toStream (a ++ q :: b) := by simp [toStream]
  have e2 : toStream a ++ (toStream U ++ some (.ok q) :: toStream b) = toStream (a ++ U ++ q :: b) := by
    simp [toStream]
  rw [e1, e2] at this
  exact Same.load_eq this hr

/-- An unknown table between tables. -/
theorem C27_table {a b c U : List CodePair} {q : CodePair} {d d' : Drawing Img}
    (h : InSection codec h0 order str!"TABLES" a (b ++ q :: c) d)
    (hs : Steps wholeTable d (toStream (b ++ q :: c)) d' (toStream (q :: c))) (hU : UnknownTable U)
    (hr : (load codec h0 order (toStream (a ++ (b ++ q :: c)))).1 ≠ .error .outOfFuel) :
    (load codec h0 order (toStream (a ++ (b ++ U ++ q :: c)))).1 =
      (load codec h0 order (toStream (a ++ (b ++ q :: c)))).1 := by
  refine Same.load_eq (inSection_same h (by simp) ?_) hr
  have e1 : toStream (b ++ q :: c) = toStream b ++ some (.ok q) :: toStream c := by simp [toStream]
  have e2 : toStream (b ++ U ++ q :: c) = toStream b ++ (toStream U ++ some (.ok q) :: toStream c) := by
    simp [toStream]
  have hf := fine_toStream (b ++ q :: c)
  rw [e1] at hf hs ⊢
  rw [e2]
  unfold readSection
  rw [if_neg (by decide), if_neg (by decide), if_pos rfl]
  exact tables_same hU hf hs

/-- An unknown variable between header variables. -/
theorem C27_variable {a b c U : List CodePair} {q : CodePair} (hq : q.code = 0 ∨ q.code = 9)
    {d : Drawing Img} {h' : Header} (h : InSection codec h0 order str!"HEADER" a (b ++ q :: c) d)
    (hs : Steps oneVariable h0 (toStream (b ++ q :: c)) h' (toStream (q :: c)))
    (hU : UnknownVariable U)
    (hr : (load codec h0 order (toStream (a ++ (b ++ q :: c)))).1 ≠ .error .outOfFuel) :
    (load codec h0 order (toStream (a ++ (b ++ U ++ q :: c)))).1 =
      (load codec h0 order (toStream (a ++ (b ++ q :: c)))).1 := by
  refine Same.load_eq (inSection_same h (by simp) ?_) hr
  have e1 : toStream (b ++ q :: c) = toStream b ++ some (.ok q) :: toStream c := by simp [toStream]
  have e2 : toStream (b ++ U ++ q :: c) = toStream b ++ (toStream U ++ some (.ok q) :: toStream c) := by
    simp [toStream]
  have hf := fine_toStream (b ++ q :: c)
  rw [e1] at hf hs ⊢
  rw [e2]
  unfold readSection
  rw [if_pos rfl]
  exact (header_same hq hU hf hs).bind

/-- An entity of an unknown kind between entities, in the drawing or in a block. -/
theorem C27_entity {a b c U : List CodePair} {q : CodePair} (hq : q.code = 0) {xs : List Flat}
    (h : BeforeEntities codec h0 order a (b ++ q :: c))
    (hs : Steps oneEntity [] (toStream (b ++ q :: c)) xs (toStream (q :: c))) (hU : UnknownEntity U)
    (hr : (load codec h0 order (toStream (a ++ (b ++ q :: c)))).1 ≠ .error .outOfFuel) :
    (load codec h0 order (toStream (a ++ (b ++ U ++ q :: c)))).1 =
      (load codec h0 order (toStream (a ++ (b ++ q :: c)))).1 := by
  have hn := fun hc => nextEntity_unknown hU q hq (toStream c) hc
  obtain ⟨op, x, content, hop, hx, he, hcon⟩ := hU
  have e0 : b ++ op :: content ++ q :: c = b ++ op :: (content ++ q :: c) := by simp
  rw [e0]
  refine Same.load_eq (entities_load hq hop.1 h (.inl (by simp; omega)) ?_) hr
  have e3 : ∀ q c, toStream (b ++ q :: c) = toStream b ++ some (.ok q) :: toStream c := by
    intro q c; simp [toStream]
  have hf := fine_toStream (b ++ q :: c)
  rw [e3] at hf hs ⊢
  rw [e3]
  refine Steps.ins nextEntity_ok hq hop.1 (by simp [toStream_length]; omega) hs hf fun hc => ?_
  rw [← hn hc]
  simp [toStream]

/-- An object of an unknown kind between objects. -/
theorem C27_object {a b c U : List CodePair} {q : CodePair} (hq : q.code = 0) {xs : List Object}
    {d : Drawing Img} (h : InSection codec h0 order str!"OBJECTS" a (b ++ q :: c) d)
    (hs : Steps oneObject [] (toStream (b ++ q :: c)) xs (toStream (q :: c))) (hU : UnknownObject U)
    (hr : (load codec h0 order (toStream (a ++ (b ++ q :: c)))).1 ≠ .error .outOfFuel) :
    (load codec h0 order (toStream (a ++ (b ++ U ++ q :: c)))).1 =
      (load codec h0 order (toStream (a ++ (b ++ q :: c)))).1 := by
  have hn := fun hc => nextObject_unknown hU q hq (toStream c) hc
  obtain ⟨op, x, content, hop, hx, he, hcon⟩ := hU
  refine Same.load_eq (inSection_same h (by simp; omega) ?_) hr
  have e0 : b ++ op :: content ++ q :: c = b ++ op :: (content ++ q :: c) := by simp
  have e3 : ∀ q c, toStream (b ++ q :: c) = toStream b ++ some (.ok q) :: toStream c := by
    intro q c; simp [toStream]
  have hf := fine_toStream (b ++ q :: c)
  unfold readSection
  rw [if_neg (by decide), if_neg (by decide), if_neg (by decide), if_neg (by decide),
    if_neg (by decide), if_pos rfl]
  refine objectSection_same d ?_
  rw [e0]
  rw [e3] at hf hs ⊢
  rw [e3]
  refine Steps.ins nextObject_ok hq hop.1 (by simp [toStream_length]; omega) hs hf fun hc => ?_
  rw [← hn hc]
  simp [toStream]

/-- A pair with an unknown code between the pairs of an entity, in the drawing or in a block. -/
theorem C27_code_entity {a b f c : List CodePair} {op p q : CodePair} {x : Str} {k : EName}
    {xs : List Flat} {st : Mode × Entry k.decls} (hq : Outside q.code)
    (h : BeforeEntities codec h0 order a (b ++ op :: (f ++ q :: c)))
    (hs : Steps oneEntity [] (toStream (b ++ op :: (f ++ q :: c))) xs
      (toStream (op :: (f ++ q :: c))))
    (hop : op.code = 0 ∧ op.value = .str x) (hx : EName.ofType x = some k)
    (hs' : Steps (onePair k) (Mode.start, Entry.dflt k.decls) (toStream (f ++ q :: c)) st
      (toStream (q :: c)))
    (hp : k.Unknown p.code)
    (hr : (load codec h0 order (toStream (a ++ (b ++ op :: (f ++ q :: c))))).1 ≠ .error .outOfFuel) :
    (load codec h0 order (toStream (a ++ (b ++ op :: (f ++ p :: q :: c))))).1 =
      (load codec h0 order (toStream (a ++ (b ++ op :: (f ++ q :: c))))).1 := by
  refine Same.load_eq (entities_load hop.1 hop.1 h (.inl (by simp)) ?_) hr
  have e3 : ∀ b q c, toStream (b ++ q :: c) = toStream b ++ some (.ok q) :: toStream c := by
    intro b q c; simp [toStream]
  have hf := fine_toStream (b ++ op :: (f ++ q :: c))
  have hf' := fine_toStream (f ++ q :: c)
  simp only [e3 b op] at hf hs ⊢
  rw [e3] at hf' hs'
  have he : x ≠ str!"ENDSEC" ∧ x ≠ str!"ENDBLK" := by
    constructor <;> (intro hx'; rw [hx'] at hx; revert hx; rw [show EName.ofType _ = none by
      decide +kernel]; simp)
  refine Steps.ins nextEntity_ok (z' := toStream (f ++ p :: q :: c)) hop.1 hop.1
    (by simp [toStream_length]) hs hf fun hc => ?_
  rw [e3] at hc ⊢
  rw [e3]
  exact nextEntity_code hp p rfl hop hx he hq hf' hs' hc

/-- A pair with an unknown code between the pairs of an object. -/
theorem C27_code_object {a b f c : List CodePair} {op p q : CodePair} {x : Str} {k : OName}
    {xs : List Object} {st : OState k} {d : Drawing Img} (hq : Outside q.code)
    (h : InSection codec h0 order str!"OBJECTS" a (b ++ op :: (f ++ q :: c)) d)
    (hs : Steps oneObject [] (toStream (b ++ op :: (f ++ q :: c))) xs
      (toStream (op :: (f ++ q :: c))))
    (hop : op.code = 0 ∧ op.value = .str x) (hx : OName.ofType x = some k)
    (hs' : Steps (oneObjectPair k) (OMode.start, Entry.dflt k.decls, {}) (toStream (f ++ q :: c)) st
      (toStream (q :: c)))
    (hp : k.Unknown p.code)
    (hr : (load codec h0 order (toStream (a ++ (b ++ op :: (f ++ q :: c))))).1 ≠ .error .outOfFuel) :
    (load codec h0 order (toStream (a ++ (b ++ op :: (f ++ p :: q :: c))))).1 =
      (load codec h0 order (toStream (a ++ (b ++ op :: (f ++ q :: c))))).1 := by
  refine Same.load_eq (inSection_same h (by simp) ?_) hr
  have e3 : ∀ b q c, toStream (b ++ q :: c) = toStream b ++ some (.ok q) :: toStream c := by
    intro b q c; simp [toStream]
  have hf := fine_toStream (b ++ op :: (f ++ q :: c))
  have hf' := fine_toStream (f ++ q :: c)
  unfold readSection
  rw [if_neg (by decide), if_neg (by decide), if_neg (by decide), if_neg (by decide),
    if_neg (by decide), if_pos rfl]
  refine objectSection_same d ?_
  simp only [e3 b op] at hf hs ⊢
  rw [e3] at hf' hs'
  have he : x ≠ str!"ENDSEC" ∧ x ≠ str!"ENDBLK" := by
    constructor <;> (intro hx'; rw [hx'] at hx; revert hx; rw [show OName.ofType _ = none by
      decide +kernel]; simp)
  refine Steps.ins nextObject_ok (z' := toStream (f ++ p :: q :: c)) hop.1 hop.1
    (by simp [toStream_length]) hs hf fun hc => ?_
  rw [e3] at hc ⊢
  rw [e3]
  exact nextObject_code hp p rfl hop hx he hq hf' hs' hc

/-- A pair with an unknown code between the pairs of a table entry. -/
theorem C27_code_table {t : TName} {a b f c : List CodePair} {op p q : CodePair}
    {xs : List (TableItem t.kind)} {e : TableItem t.kind} (hq : Outside q.code)
    (h : InTable codec h0 order t a (b ++ op :: (f ++ q :: c)))
    (hs : Steps (oneEntry t.kind) [] (toStream (b ++ op :: (f ++ q :: c))) xs
      (toStream (op :: (f ++ q :: c))))
    (hop : op.code = 0 ∧ op.value = .str t.kind.typeString)
    (hs' : Steps (oneField t.kind.arms) (Entry.dflt t.kind.decls) (toStream (f ++ q :: c)) e
      (toStream (q :: c)))
    (hp : UnknownCode t.kind.arms p.code)
    (hr : (load codec h0 order (toStream (a ++ (b ++ op :: (f ++ q :: c))))).1 ≠ .error .outOfFuel) :
    (load codec h0 order (toStream (a ++ (b ++ op :: (f ++ p :: q :: c))))).1 =
      (load codec h0 order (toStream (a ++ (b ++ op :: (f ++ q :: c))))).1 := by
  refine Same.load_eq (inTable_load h (by simp) ?_) hr
  have e3 : ∀ b q c, toStream (b ++ q :: c) = toStream b ++ some (.ok q) :: toStream c := by
    intro b q c; simp [toStream]
  have hf := fine_toStream (b ++ op :: (f ++ q :: c))
  have e4 : ∀ y : List CodePair, toStream (op :: y) = some (.ok op) :: toStream y := by
    intro y; simp [toStream]
  rw [e3, e3] at hf hs ⊢
  rw [e3, e3 f p, show toStream (q :: c) = some (.ok q) :: toStream c by simp [toStream]]
  rw [e4, e3] at hs
  rw [e3] at hs'
  exact entries_code t.kind hp hop hq hf hs hs'

/-- A pair with an unknown code between the pairs of a block. -/
theorem C27_code_block {a f c : List CodePair} {p q : CodePair} {e : Entry Blocks.decls}
    (hq : Outside q.code) (h : InBlock codec h0 order a (f ++ q :: c))
    (hs : Steps (oneField Blocks.arms) Block.dflt.entry (toStream (f ++ q :: c)) e
      (toStream (q :: c)))
    (hp : UnknownCode Blocks.arms p.code)
    (hr : (load codec h0 order (toStream (a ++ (f ++ q :: c)))).1 ≠ .error .outOfFuel) :
    (load codec h0 order (toStream (a ++ (f ++ p :: q :: c)))).1 =
      (load codec h0 order (toStream (a ++ (f ++ q :: c)))).1 := by
  refine Same.load_eq (inBlock_load h (by simp) ?_) hr
  have e3 : ∀ b q c, toStream (b ++ q :: c) = toStream b ++ some (.ok q) :: toStream c := by
    intro b q c; simp [toStream]
  have hf := fine_toStream (f ++ q :: c)
  rw [e3] at hf hs ⊢
  rw [e3, show toStream (q :: c) = some (.ok q) :: toStream c by simp [toStream]]
  exact blockRead_code hp hq hf hs

/-- A pair with an unknown code between the pairs of a class. -/
theorem C27_code_class {a b f c : List CodePair} {op p q : CodePair} {s : Str} {cs : List Class}
    {x : Class} {d : Drawing Img} (hq : Outside q.code)
    (h : InSection codec h0 order str!"CLASSES" a (b ++ op :: (f ++ q :: c)) d)
    (hs : Steps (oneClass d.version) [] (toStream (b ++ op :: (f ++ q :: c))) cs
      (toStream (op :: (f ++ q :: c))))
    (hop : op.code = 0 ∧ op.value = .str s) (hsec : s ≠ str!"ENDSEC")
    (hs' : Steps (oneClassPair d.version) (if d.version ≤ .r13 then
      { Class.dflt with recordName := s } else Class.dflt) (toStream (f ++ q :: c)) x
      (toStream (q :: c)))
    (hp : Class.Unknown p.code ∧ p.code < 1000)
    (hr : (load codec h0 order (toStream (a ++ (b ++ op :: (f ++ q :: c))))).1 ≠ .error .outOfFuel) :
    (load codec h0 order (toStream (a ++ (b ++ op :: (f ++ p :: q :: c))))).1 =
      (load codec h0 order (toStream (a ++ (b ++ op :: (f ++ q :: c))))).1 := by
  refine Same.load_eq (inSection_same h (by simp) ?_) hr
  have e3 : ∀ b q c, toStream (b ++ q :: c) = toStream b ++ some (.ok q) :: toStream c := by
    intro b q c; simp [toStream]
  have hf := fine_toStream (b ++ op :: (f ++ q :: c))
  have e4 : ∀ y : List CodePair, toStream (op :: y) = some (.ok op) :: toStream y := by
    intro y; simp [toStream]
  unfold readSection
  rw [if_neg (by decide), if_pos rfl]
  rw [e3, e3] at hf hs ⊢
  rw [e3, e3 f p, show toStream (q :: c) = some (.ok q) :: toStream c by simp [toStream]]
  rw [e4, e3] at hs
  rw [e3] at hs'
  exact (classes_code d.version hp.1 hp.2 hop hsec hq hf hs hs').bind

/-! ### The hypotheses can be met -/

section Examples

variable {d0 : Drawing Img} (hn : new h0 order = .ok d0)
include hn

private def z0 (s : Str) : CodePair := .newStr 0 s

private def headerSection : List CodePair :=
  [z0 str!"SECTION", .newStr 2 str!"HEADER", .newStr 9 str!"$MENU", .newStr 1 str!"x",
    z0 str!"ENDSEC"]

private theorem afterHeader (b : List CodePair) :
    ∃ d, AtSection codec h0 order headerSection b d :=
  ⟨_, fun d1 h1 => by cases hn.symm.trans h1; exact .next rfl .here⟩

private theorem inside (name : Str) (b : List CodePair) :
    ∃ d, InSection codec h0 order name (headerSection ++ [z0 str!"SECTION", .newStr 2 name]) b d := by
  obtain ⟨d, h⟩ := afterHeader (codec := codec) hn (z0 str!"SECTION" :: .newStr 2 name :: b)
  exact ⟨d, .mk headerSection _ _ b d ⟨rfl, rfl⟩ ⟨rfl, rfl⟩ h⟩

example : (load codec h0 order (toStream (headerSection ++ [z0 str!"SECTION", .newStr 2 str!"FOO", .newI32 90 7#32,
      z0 str!"BAR", z0 str!"ENDSEC"] ++ [z0 str!"EOF"]))).1 =
    (load codec h0 order (toStream (headerSection ++ [z0 str!"EOF"]))).1 := by
  obtain ⟨d, h⟩ := afterHeader (codec := codec) hn [z0 str!"EOF"]
  refine C27_section h (.mk (z0 str!"SECTION") (.newStr 2 str!"FOO") (z0 str!"ENDSEC") str!"FOO"
    [.newI32 90 7#32, z0 str!"BAR"] ⟨rfl, rfl⟩ ⟨rfl, rfl⟩ (by decide) ⟨rfl, rfl⟩ ?_) ?_
  · intro p hp h0
    simp only [List.mem_cons, List.not_mem_nil, or_false] at hp
    rcases hp with rfl | rfl
    · cases h0
    · exact ⟨_, rfl, by decide⟩
  · unfold load
    rw [hn]
    exact fun h => nomatch h

/-- An unknown table behind a table. -/
example : ∃ d d', InSection codec h0 order str!"TABLES"
      (headerSection ++ [z0 str!"SECTION", .newStr 2 str!"TABLES"])
      ([z0 str!"TABLE", .newStr 2 str!"STYLE", z0 str!"ENDTAB"] ++ z0 str!"ENDSEC" ::
        [z0 str!"EOF"]) d ∧
    Steps wholeTable d (toStream ([z0 str!"TABLE", .newStr 2 str!"STYLE", z0 str!"ENDTAB"] ++
      z0 str!"ENDSEC" :: [z0 str!"EOF"])) d' (toStream (z0 str!"ENDSEC" :: [z0 str!"EOF"])) ∧
    UnknownTable [z0 str!"TABLE", .newStr 2 str!"FOO", z0 str!"BAR", z0 str!"ENDTAB"] := by
  obtain ⟨d, h⟩ := inside (codec := codec) hn str!"TABLES" ([z0 str!"TABLE", .newStr 2 str!"STYLE", z0 str!"ENDTAB"] ++ z0 str!"ENDSEC" ::
        [z0 str!"EOF"])
  refine ⟨d, d, h, .next rfl .here, .mk (z0 str!"TABLE") (.newStr 2 str!"FOO") (z0 str!"ENDTAB")
    str!"FOO" [z0 str!"BAR"] ⟨rfl, rfl⟩ ⟨rfl, rfl⟩ (by decide) ⟨rfl, rfl⟩ ?_⟩
  intro p hp _
  simp only [List.mem_cons, List.not_mem_nil, or_false] at hp
  subst hp
  exact ⟨_, rfl, by decide⟩

/-- An unknown variable behind a variable. -/
example : ∃ d h', InSection codec h0 order str!"HEADER"
      (headerSection ++ [z0 str!"SECTION", .newStr 2 str!"HEADER"])
      ([.newStr 9 str!"$MENU", .newStr 1 str!"y"] ++ z0 str!"ENDSEC" :: [z0 str!"EOF"]) d ∧
    Steps oneVariable h0 (toStream ([.newStr 9 str!"$MENU", .newStr 1 str!"y"] ++
      z0 str!"ENDSEC" :: [z0 str!"EOF"])) h' (toStream (z0 str!"ENDSEC" :: [z0 str!"EOF"])) ∧
    UnknownVariable [.newStr 9 str!"$FOO", .newI16 70 1#16] := by
  obtain ⟨d, h⟩ := inside (codec := codec) hn str!"HEADER"
    ([.newStr 9 str!"$MENU", .newStr 1 str!"y"] ++ z0 str!"ENDSEC" :: [z0 str!"EOF"])
  refine ⟨d, _, h, .next rfl .here, .mk (.newStr 9 str!"$FOO") str!"$FOO" [.newI16 70 1#16]
    ⟨rfl, rfl⟩ ?_ (by decide)⟩
  have : Header.vars.all (fun v => decide (v.name ≠ str!"$FOO")) = true := by decide +kernel
  exact fun v hv => of_decide_eq_true (List.all_eq_true.mp this v hv)

/-- An unknown entity behind a line. -/
example : ∃ xs, BeforeEntities codec h0 order
      (headerSection ++ [z0 str!"SECTION", .newStr 2 str!"ENTITIES"])
      ([z0 str!"LINE", .newStr 8 str!"a"] ++ z0 str!"ENDSEC" :: [z0 str!"EOF"]) ∧
    Steps oneEntity [] (toStream ([z0 str!"LINE", .newStr 8 str!"a"] ++
      z0 str!"ENDSEC" :: [z0 str!"EOF"])) xs (toStream (z0 str!"ENDSEC" :: [z0 str!"EOF"])) ∧
    UnknownEntity [z0 str!"FOO", .newStr 1 str!"x"] := by
  obtain ⟨d, h⟩ := inside (codec := codec) hn str!"ENTITIES"
    ([z0 str!"LINE", .newStr 8 str!"a"] ++ z0 str!"ENDSEC" :: [z0 str!"EOF"])
  exact ⟨_, .drawing _ _ d h, .next rfl .here, .mk (z0 str!"FOO") str!"FOO" [.newStr 1 str!"x"]
    ⟨rfl, rfl⟩ (by decide +kernel) (by decide) (by decide)⟩

/-- The same in a block. -/
example : ∃ xs, BeforeEntities codec h0 order
      (headerSection ++ [z0 str!"SECTION", .newStr 2 str!"BLOCKS"] ++ [] ++ [z0 str!"BLOCK"] ++
        [.newStr 2 str!"b"])
      ([z0 str!"LINE", .newStr 8 str!"a"] ++ z0 str!"ENDBLK" ::
        [z0 str!"ENDSEC", z0 str!"EOF"]) ∧
    Steps oneEntity [] (toStream ([z0 str!"LINE", .newStr 8 str!"a"] ++ z0 str!"ENDBLK" ::
        [z0 str!"ENDSEC", z0 str!"EOF"])) xs
      (toStream (z0 str!"ENDBLK" :: [z0 str!"ENDSEC", z0 str!"EOF"])) := by
  obtain ⟨d, h⟩ := inside (codec := codec) hn str!"BLOCKS"
    ([] ++ z0 str!"BLOCK" :: ([.newStr 2 str!"b"] ++ ([z0 str!"LINE", .newStr 8 str!"a"] ++
      z0 str!"ENDBLK" :: [z0 str!"ENDSEC", z0 str!"EOF"])))
  exact ⟨_, .block _ _ _ _ (.mk _ [] (z0 str!"BLOCK") _ d d ⟨rfl, rfl⟩ h .here) rfl, .next rfl .here⟩

/-- An unknown object behind a placeholder. -/
example : ∃ d xs, InSection codec h0 order str!"OBJECTS"
      (headerSection ++ [z0 str!"SECTION", .newStr 2 str!"OBJECTS"])
      ([z0 str!"ACDBPLACEHOLDER"] ++ z0 str!"ENDSEC" :: [z0 str!"EOF"]) d ∧
    Steps oneObject [] (toStream ([z0 str!"ACDBPLACEHOLDER"] ++
      z0 str!"ENDSEC" :: [z0 str!"EOF"])) xs (toStream (z0 str!"ENDSEC" :: [z0 str!"EOF"])) ∧
    UnknownObject [z0 str!"FOO", .newStr 1 str!"x"] := by
  obtain ⟨d, h⟩ := inside (codec := codec) hn str!"OBJECTS"
    ([z0 str!"ACDBPLACEHOLDER"] ++ z0 str!"ENDSEC" :: [z0 str!"EOF"])
  exact ⟨d, _, h, .next rfl .here, .mk (z0 str!"FOO") str!"FOO" [.newStr 1 str!"x"]
    ⟨rfl, rfl⟩ (by decide +kernel) (by decide) (by decide)⟩

end Examples

/-- Code 1 is unknown for a line, a placeholder and a layer; a place behind another pair. -/
example : EName.line.Unknown 1 := by
  refine ⟨by decide, by decide, by decide, by decide, fun m => ⟨?_, fun _ _ => rfl⟩⟩
  rfl

example : ∃ st, Steps (onePair .line) (Mode.start, Entry.dflt _)
    (toStream ([.newStr 8 str!"a"] ++ z0 str!"ENDSEC" :: [])) st (toStream (z0 str!"ENDSEC" :: [])) :=
  ⟨_, .next rfl .here⟩

example : OName.placeHolder.Unknown 1 := by
  refine ⟨by decide, by decide, by decide, by decide, by decide,
    fun m => ⟨?_, fun _ _ => ⟨rfl, fun _ => rfl⟩⟩⟩
  rfl

/-- Code 40 is unknown for a dictionary. -/
example : OName.dictionary.Unknown 40 := by
  refine ⟨by decide, by decide, by decide, by decide, by decide,
    fun m => ⟨rfl, fun p hp => ⟨rfl, fun w => ?_⟩⟩⟩
  change w.dictionary p = none
  unfold OWork.dictionary
  rw [hp]
  rfl

example : UnknownCode Tables.layer.arms 1 := by
  refine ⟨by decide, by decide, by decide, by decide, rfl⟩

example : ∃ xs, Steps (oneEntry Tables.layer) [] (toStream ([.newI16 70 1#16, z0 str!"LAYER", .newStr 2 str!"a"] ++ z0 str!"LAYER" :: [.newStr 2 str!"b", z0 str!"ENDTAB"])) xs
   (toStream (z0 str!"LAYER" :: [.newStr 2 str!"b", z0 str!"ENDTAB"])) := ⟨_, .next rfl (.next rfl .here)⟩

example : UnknownCode Blocks.arms 40 := by
  refine ⟨by decide, by decide, by decide, by decide, rfl⟩

example : ∃ e, Steps (oneField Blocks.arms) Block.dflt.entry (toStream ([.newStr 2 str!"b"] ++
    z0 str!"ENDBLK" :: [])) e (toStream (z0 str!"ENDBLK" :: [])) := ⟨_, .next rfl .here⟩

example : Class.Unknown 40 := by unfold Class.Unknown; decide

example : ∃ cs, Steps (oneClass .r2000) [] (toStream ([z0 str!"CLASS", .newStr 1 str!"a"] ++
    z0 str!"CLASS" :: [z0 str!"ENDSEC"])) cs (toStream (z0 str!"CLASS" :: [z0 str!"ENDSEC"])) :=
  ⟨_, .next rfl .here⟩

/-! ### Where unknown content is not skipped -/

private def noImages : ImageCodec Unit :=
  ⟨fun _ => .error .imageError, fun _ => .error .imageError⟩

/-- Without the pairs in the middle the file is loaded, with them the pair in question is an error. -/
private def stumbles (a b c : List CodePair) (p : CodePair) : Bool :=
  match (load noImages (Rec.dflt _) [] (toStream (a ++ c))).1,
    (load noImages (Rec.dflt _) [] (toStream (a ++ (b ++ c)))).1 with
  | .ok _, .error (.unexpectedCodePair q) => decide (p = q)
  | _, _ => false

/-- Content in the middle of a file that is not skipped, but an error. -/
private def Stumbles (a b c : List CodePair) (p : CodePair) : Prop :=
  (∃ d, (load noImages (Rec.dflt _) [] (toStream (a ++ c))).1 = .ok d) ∧
    (load noImages (Rec.dflt _) [] (toStream (a ++ (b ++ c)))).1 = .error (.unexpectedCodePair p)

private theorem stumbles_of {a b c : List CodePair} {p : CodePair} (h : stumbles a b c p = true) :
    Stumbles a b c p := by
  unfold stumbles at h
  split at h
  · rename_i d q h1 h2
    have hq : p = q := by simpa using h
    subst hq
    exact ⟨⟨d, h1⟩, h2⟩
  · cases h

/-- C27 fails for entries: an entry of an unknown type within a table is an error. -/
theorem C27_entry_violated : Stumbles
    [z0 str!"SECTION", .newStr 2 str!"TABLES", z0 str!"TABLE", .newStr 2 str!"LAYER",
      z0 str!"LAYER", .newStr 2 str!"a"]
    [z0 str!"FOO", .newStr 2 str!"b"]
    [z0 str!"ENDTAB", z0 str!"ENDSEC", z0 str!"EOF"] (z0 str!"FOO") :=
  stumbles_of (by decide +kernel)

/-- C27 fails between blocks: anything but a block in the section of blocks is an error. -/
theorem C27_block_violated : Stumbles
    [z0 str!"SECTION", .newStr 2 str!"BLOCKS", z0 str!"BLOCK", .newStr 2 str!"a", z0 str!"ENDBLK"]
    [z0 str!"FOO", .newStr 2 str!"b"]
    [z0 str!"ENDSEC", z0 str!"EOF"] (z0 str!"FOO") :=
  stumbles_of (by decide +kernel)

/-- The number of classes in a file. -/
private def classCount (s : List CodePair) : Option Nat :=
  match (load noImages (Rec.dflt _) [] (toStream s)).1 with
  | .ok d => some d.classes.length
  | .error _ => none

/-- C27 fails between classes: anything else in the section of classes becomes a class, although
classes begin with `CLASS` in drawings of this version. -/
theorem C27_class_violated : ∃ a b c,
    a = [z0 str!"SECTION", .newStr 2 str!"HEADER", .newStr 9 str!"$ACADVER", .newStr 1 str!"AC1015",
      z0 str!"ENDSEC", z0 str!"SECTION", .newStr 2 str!"CLASSES", z0 str!"CLASS", .newStr 1 str!"a"] ∧
    b = [z0 str!"FOO", .newStr 2 str!"b"] ∧ c = [z0 str!"ENDSEC", z0 str!"EOF"] ∧
    classCount (a ++ c) = some 1 ∧ classCount (a ++ (b ++ c)) = some 2 :=
  ⟨_, _, _, rfl, rfl, rfl, by decide +kernel, by decide +kernel⟩

/-- C27 fails between sections: a pair with an unknown code is an error. -/
theorem C27_pair_violated : Stumbles
    [z0 str!"SECTION", .newStr 2 str!"ENTITIES", z0 str!"ENDSEC"]
    [.newI16 70 1#16] [z0 str!"EOF"] (.newI16 70 1#16) :=
  stumbles_of (by decide +kernel)

end Dxf
