import Verif.Lemmas.PartsPlaces

/-! C68: a section or a table may be given in several parts.

In every theorem `b` is the first part of the content and `c` the second; loading gives the same
result, be it a drawing or an error found later, if the marks of an end and of another begin stand
between them.  What comes before and after is arbitrary, as long as loading comes to the content
and gets through it. -/

namespace Dxf

open Drawing

variable {Img : Type} {codec : ImageCodec Img} {h0 : Header} {order : List Str}

/-- The section of classes. -/
theorem C68_classes {a b c e : List CodePair} {cl cl' op nm : CodePair} {d : Drawing Img}
    {xs ys : List Class}
    (h : InSection codec h0 order str!"CLASSES" a (b ++ (c ++ cl :: e)) d)
    (hcl : cl.code = 0 ∧ cl.value = .str str!"ENDSEC") (hc : ∀ q ∈ c.head?, q.code = 0)
    (h1 : Steps (oneClass d.version) [] (toStream (b ++ (c ++ cl :: e))) xs (toStream (c ++ cl :: e)))
    (h2 : Steps (oneClass d.version) [] (toStream (c ++ cl :: e)) ys (toStream (cl :: e)))
    (hm : BetweenParts str!"CLASSES" cl' op nm)
    (hr : (load codec h0 order (toStream (a ++ (b ++ (c ++ cl :: e))))).1 ≠ .error .outOfFuel) :
    (load codec h0 order (toStream (a ++ (b ++ cl' :: op :: nm :: (c ++ cl :: e))))).1 =
      (load codec h0 order (toStream (a ++ (b ++ (c ++ cl :: e))))).1 :=
  Same.load_eq (classes_parts h hm hcl hc h1 h2) hr

/-- The section of tables. -/
theorem C68_tables {a b c e : List CodePair} {cl cl' op nm : CodePair} {d d1 d2 : Drawing Img}
    (h : InSection codec h0 order str!"TABLES" a (b ++ (c ++ cl :: e)) d)
    (hcl : cl.code = 0 ∧ cl.value = .str str!"ENDSEC") (hc : ∀ q ∈ c.head?, q.code = 0)
    (h1 : Steps wholeTable d (toStream (b ++ (c ++ cl :: e))) d1 (toStream (c ++ cl :: e)))
    (h2 : Steps wholeTable d1 (toStream (c ++ cl :: e)) d2 (toStream (cl :: e)))
    (hm : BetweenParts str!"TABLES" cl' op nm)
    (hr : (load codec h0 order (toStream (a ++ (b ++ (c ++ cl :: e))))).1 ≠ .error .outOfFuel) :
    (load codec h0 order (toStream (a ++ (b ++ cl' :: op :: nm :: (c ++ cl :: e))))).1 =
      (load codec h0 order (toStream (a ++ (b ++ (c ++ cl :: e))))).1 :=
  Same.load_eq (tables_parts h hm hcl hc h1 h2) hr

/-- A single table. -/
theorem C68_table {t : TName} {a b c e : List CodePair} {cl cl' op nm : CodePair}
    {xs ys : List (TableItem t.kind)} (h : InTable codec h0 order t a (b ++ (c ++ cl :: e)))
    (hcl : cl.code = 0 ∧ cl.value = .str str!"ENDTAB") (hc : ∀ q ∈ c.head?, q.code = 0)
    (h1 : Steps (oneEntry t.kind) [] (toStream (b ++ (c ++ cl :: e))) xs (toStream (c ++ cl :: e)))
    (h2 : Steps (oneEntry t.kind) [] (toStream (c ++ cl :: e)) ys (toStream (cl :: e)))
    (hm : BetweenTables t.kind.typeString cl' op nm)
    (hr : (load codec h0 order (toStream (a ++ (b ++ (c ++ cl :: e))))).1 ≠ .error .outOfFuel) :
    (load codec h0 order (toStream (a ++ (b ++ cl' :: op :: nm :: (c ++ cl :: e))))).1 =
      (load codec h0 order (toStream (a ++ (b ++ (c ++ cl :: e))))).1 :=
  Same.load_eq (inTable_parts h hm hcl hc h1 h2) hr

/-- The section of blocks. -/
theorem C68_blocks {a b c e : List CodePair} {cl cl' op nm : CodePair} {d d1 d2 : Drawing Img}
    (h : InSection codec h0 order str!"BLOCKS" a (b ++ (c ++ cl :: e)) d)
    (hcl : cl.code = 0 ∧ cl.value = .str str!"ENDSEC") (hc : ∀ q ∈ c.head?, q.code = 0)
    (h1 : Steps wholeBlock d (toStream (b ++ (c ++ cl :: e))) d1 (toStream (c ++ cl :: e)))
    (h2 : Steps wholeBlock d1 (toStream (c ++ cl :: e)) d2 (toStream (cl :: e)))
    (hm : BetweenParts str!"BLOCKS" cl' op nm)
    (hr : (load codec h0 order (toStream (a ++ (b ++ (c ++ cl :: e))))).1 ≠ .error .outOfFuel) :
    (load codec h0 order (toStream (a ++ (b ++ cl' :: op :: nm :: (c ++ cl :: e))))).1 =
      (load codec h0 order (toStream (a ++ (b ++ (c ++ cl :: e))))).1 :=
  Same.load_eq (blocks_parts h hm hcl hc h1 h2) hr

/-- The section of entities, at a place where no entity is cut off from the ones that belong to
it. -/
theorem C68_entities {a b c e : List CodePair} {cl cl' op nm : CodePair} {d : Drawing Img}
    {xs ys : List Flat}
    (h : InSection codec h0 order str!"ENTITIES" a (b ++ (c ++ cl :: e)) d)
    (hcl : cl.code = 0 ∧ cl.value = .str str!"ENDSEC") (hc : ∀ q ∈ c.head?, q.code = 0)
    (h1 : Steps oneEntity [] (toStream (b ++ (c ++ cl :: e))) xs (toStream (c ++ cl :: e)))
    (h2 : Steps oneEntity [] (toStream (c ++ cl :: e)) ys (toStream (cl :: e)))
    (hs : Separate xs ys) (hm : BetweenParts str!"ENTITIES" cl' op nm)
    (hr : (load codec h0 order (toStream (a ++ (b ++ (c ++ cl :: e))))).1 ≠ .error .outOfFuel) :
    (load codec h0 order (toStream (a ++ (b ++ cl' :: op :: nm :: (c ++ cl :: e))))).1 =
      (load codec h0 order (toStream (a ++ (b ++ (c ++ cl :: e))))).1 :=
  Same.load_eq (entities_parts h hm hcl hc h1 h2 hs) hr

/-- The section of objects. -/
theorem C68_objects {a b c e : List CodePair} {cl cl' op nm : CodePair} {d : Drawing Img}
    {xs ys : List Object}
    (h : InSection codec h0 order str!"OBJECTS" a (b ++ (c ++ cl :: e)) d)
    (hcl : cl.code = 0 ∧ cl.value = .str str!"ENDSEC") (hc : ∀ q ∈ c.head?, q.code = 0)
    (h1 : Steps oneObject [] (toStream (b ++ (c ++ cl :: e))) xs (toStream (c ++ cl :: e)))
    (h2 : Steps oneObject [] (toStream (c ++ cl :: e)) ys (toStream (cl :: e)))
    (hm : BetweenParts str!"OBJECTS" cl' op nm)
    (hr : (load codec h0 order (toStream (a ++ (b ++ (c ++ cl :: e))))).1 ≠ .error .outOfFuel) :
    (load codec h0 order (toStream (a ++ (b ++ cl' :: op :: nm :: (c ++ cl :: e))))).1 =
      (load codec h0 order (toStream (a ++ (b ++ (c ++ cl :: e))))).1 :=
  Same.load_eq (objects_parts h hm hcl hc h1 h2) hr

/-! ### The hypotheses can be met -/

private def z0 (s : Str) : CodePair := .newStr 0 s

section Examples

variable {d0 : Drawing Img} (hn : new h0 order = .ok d0)
include hn

private theorem inside (name : Str) (b : List CodePair) :
    InSection codec h0 order name [z0 str!"SECTION", .newStr 2 name] b d0.clear :=
  .mk [] _ _ b d0.clear ⟨rfl, rfl⟩ ⟨rfl, rfl⟩ fun d1 h1 => by cases hn.symm.trans h1; exact .here

/-- Two classes. -/
example (v : Version) : ∃ xs ys,
    Steps (oneClass v) [] (toStream ([z0 str!"CLASS", .newStr 1 str!"a"] ++ ([z0 str!"CLASS",
      .newStr 1 str!"b"] ++ z0 str!"ENDSEC" :: [z0 str!"EOF"]))) xs
      (toStream ([z0 str!"CLASS", .newStr 1 str!"b"] ++ z0 str!"ENDSEC" :: [z0 str!"EOF"])) ∧
    Steps (oneClass v) [] (toStream ([z0 str!"CLASS", .newStr 1 str!"b"] ++
      z0 str!"ENDSEC" :: [z0 str!"EOF"])) ys (toStream (z0 str!"ENDSEC" :: [z0 str!"EOF"])) := by
  cases v <;> exact ⟨_, _, .next rfl .here, .next rfl .here⟩

/-- A line and a circle. -/
example :
    ∃ xs ys d, InSection codec h0 order str!"ENTITIES" [z0 str!"SECTION", .newStr 2 str!"ENTITIES"]
      ([z0 str!"LINE"] ++ ([z0 str!"CIRCLE"] ++ z0 str!"ENDSEC" :: [z0 str!"EOF"])) d ∧
    Steps oneEntity [] (toStream ([z0 str!"LINE"] ++ ([z0 str!"CIRCLE"] ++
      z0 str!"ENDSEC" :: [z0 str!"EOF"]))) xs (toStream ([z0 str!"CIRCLE"] ++
      z0 str!"ENDSEC" :: [z0 str!"EOF"])) ∧
    Steps oneEntity [] (toStream ([z0 str!"CIRCLE"] ++ z0 str!"ENDSEC" :: [z0 str!"EOF"])) ys
      (toStream (z0 str!"ENDSEC" :: [z0 str!"EOF"])) ∧ Separate xs ys ∧
    BetweenParts str!"ENTITIES" (z0 str!"ENDSEC") (z0 str!"SECTION") (.newStr 2 str!"ENTITIES") := by
  refine ⟨_, _, _, inside hn _ _, .next rfl .here, .next rfl .here, ?_, ⟨⟨rfl, rfl⟩, ⟨rfl, rfl⟩,
    ⟨rfl, rfl⟩⟩⟩
  intro y hy
  cases hy
  refine ⟨?_, ?_, ?_, ?_⟩ <;> (intro h; cases h)

/-- Two tables: one of layers and one of styles. -/
example : ∃ d1 d2,
    Steps wholeTable d0.clear (toStream ([z0 str!"TABLE", .newStr 2 str!"LAYER", z0 str!"ENDTAB"] ++
      ([z0 str!"TABLE", .newStr 2 str!"STYLE", z0 str!"ENDTAB"] ++
        z0 str!"ENDSEC" :: [z0 str!"EOF"]))) d1
      (toStream ([z0 str!"TABLE", .newStr 2 str!"STYLE", z0 str!"ENDTAB"] ++
        z0 str!"ENDSEC" :: [z0 str!"EOF"])) ∧
    Steps wholeTable d1 (toStream ([z0 str!"TABLE", .newStr 2 str!"STYLE", z0 str!"ENDTAB"] ++
        z0 str!"ENDSEC" :: [z0 str!"EOF"])) d2 (toStream (z0 str!"ENDSEC" :: [z0 str!"EOF"])) :=
  ⟨_, _, .next rfl .here, .next rfl .here⟩

end Examples

/-- Two layers in a table. -/
example : ∃ xs ys, Steps (oneEntry TName.layer.kind) [] (toStream ([z0 str!"LAYER",
      .newStr 2 str!"a"] ++ ([z0 str!"LAYER", .newStr 2 str!"b"] ++
      z0 str!"ENDTAB" :: [z0 str!"ENDSEC"]))) xs
      (toStream ([z0 str!"LAYER", .newStr 2 str!"b"] ++ z0 str!"ENDTAB" :: [z0 str!"ENDSEC"])) ∧
    Steps (oneEntry TName.layer.kind) [] (toStream ([z0 str!"LAYER", .newStr 2 str!"b"] ++
      z0 str!"ENDTAB" :: [z0 str!"ENDSEC"])) ys (toStream (z0 str!"ENDTAB" :: [z0 str!"ENDSEC"])) :=
  ⟨_, _, .next rfl .here, .next rfl .here⟩

/-- Two objects. -/
example : ∃ xs ys, Steps oneObject [] (toStream ([z0 str!"ACDBPLACEHOLDER", .newStr 5 str!"1"] ++
      ([z0 str!"ACDBPLACEHOLDER"] ++ z0 str!"ENDSEC" :: []))) xs
      (toStream ([z0 str!"ACDBPLACEHOLDER"] ++ z0 str!"ENDSEC" :: [])) ∧
    Steps oneObject [] (toStream ([z0 str!"ACDBPLACEHOLDER"] ++ z0 str!"ENDSEC" :: [])) ys
      (toStream (z0 str!"ENDSEC" :: [])) := ⟨_, _, .next rfl .here, .next rfl .here⟩

/-! ### Where the division matters -/

private def noImages : ImageCodec Unit :=
  ⟨fun _ => .error .imageError, fun _ => .error .imageError⟩

/-- Something about the drawing in a file. -/
private def told {α : Type} (f : Drawing Unit → α) (file : List CodePair) : Option α :=
  match (load noImages (Rec.dflt _) [] (toStream file)).1 with
  | .ok d => some (f d)
  | .error _ => none

/-- C68 fails for the header: a second section of variables discards what the first one has set,
here the version of the drawing. -/
theorem C68_header_violated : ∃ a b c,
    a = [z0 str!"SECTION", .newStr 2 str!"HEADER", .newStr 9 str!"$ACADVER", .newStr 1 str!"AC1015"] ∧
    b = [z0 str!"ENDSEC", z0 str!"SECTION", .newStr 2 str!"HEADER"] ∧
    c = [.newStr 9 str!"$MENU", .newStr 1 str!"x", z0 str!"ENDSEC", z0 str!"EOF"] ∧
    told Drawing.version (a ++ c) = some .r2000 ∧ told Drawing.version (a ++ (b ++ c)) ≠ some .r2000 :=
  ⟨_, _, _, rfl, rfl, rfl, by decide +kernel, by decide +kernel⟩

/-- The condition on entities is needed: vertices in another section than their polyline are
entities of their own. -/
theorem C68_needed : ∃ a b c,
    a = [z0 str!"SECTION", .newStr 2 str!"ENTITIES", z0 str!"POLYLINE"] ∧
    b = [z0 str!"ENDSEC", z0 str!"SECTION", .newStr 2 str!"ENTITIES"] ∧
    c = [z0 str!"VERTEX", z0 str!"SEQEND", z0 str!"ENDSEC", z0 str!"EOF"] ∧
    told (·.entities.length) (a ++ c) = some 1 ∧ told (·.entities.length) (a ++ (b ++ c)) = some 3 :=
  ⟨_, _, _, rfl, rfl, rfl, by decide +kernel, by decide +kernel⟩

/-- The order of the sections matters: a layer that is defined after an entity on it is there
twice. -/
theorem C68_order_violated : ∃ a b,
    a = [z0 str!"SECTION", .newStr 2 str!"TABLES", z0 str!"TABLE", .newStr 2 str!"LAYER",
      z0 str!"LAYER", .newStr 2 str!"a", z0 str!"ENDTAB", z0 str!"ENDSEC"] ∧
    b = [z0 str!"SECTION", .newStr 2 str!"ENTITIES", z0 str!"LINE", .newStr 8 str!"a",
      z0 str!"ENDSEC"] ∧
    told (fun d => (d.tables .layer).length) (a ++ (b ++ [z0 str!"EOF"])) = some 1 ∧
    told (fun d => (d.tables .layer).length) (b ++ (a ++ [z0 str!"EOF"])) = some 2 :=
  ⟨_, _, rfl, rfl, by decide +kernel, by decide +kernel⟩

end Dxf
