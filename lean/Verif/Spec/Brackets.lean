import Verif.Model.File

/-! What it means that a list of pairs is well bracketed. -/

namespace Dxf

/-- The words of pairs with code 0 that open or close something.  `SECTION` is not among them as it
is also the name of a kind of entities; the end of a section is the first `ENDSEC`. -/
def brackets : List Str :=
  [str!"ENDSEC", str!"TABLE", str!"ENDTAB", str!"BLOCK", str!"ENDBLK", str!"EOF"]

/-- A pair that opens and closes nothing. -/
def Quiet (p : CodePair) : Prop := p.code = 0 → ∃ s, p.value = .str s ∧ s ∉ brackets

def AllQuiet (ps : List CodePair) : Prop := ∀ p ∈ ps, Quiet p

/-- The contents of the section `TABLES`: tables one after the other. -/
def TablesBody (body : List CodePair) : Prop :=
  ∃ tables : List (Str × List CodePair),
    body = (tables.flatMap fun t => [.newStr 0 str!"TABLE", .newStr 2 t.1] ++ t.2 ++
      [.newStr 0 str!"ENDTAB"]) ∧
    ∀ t ∈ tables, AllQuiet t.2

/-- The contents of the section `BLOCKS`: blocks one after the other, with something before and
behind the mark at the end of each. -/
def BlocksBody (body : List CodePair) : Prop :=
  ∃ blocks : List (List CodePair × List CodePair),
    body = (blocks.flatMap fun b => .newStr 0 str!"BLOCK" :: b.1 ++
      .newStr 0 str!"ENDBLK" :: b.2) ∧
    ∀ b ∈ blocks, AllQuiet b.1 ∧ AllQuiet b.2

/-- The contents of a section. -/
def SectionBody (name : Str) (body : List CodePair) : Prop :=
  if name = str!"TABLES" then TablesBody body
  else if name = str!"BLOCKS" then BlocksBody body
  else AllQuiet body

/-- Sections with the given names in their order, each opened and closed, and then the mark at the
end. -/
def Bracketed (names : List Str) (ps : List CodePair) : Prop :=
  ∃ sections : List (Str × List CodePair),
    ps = (sections.flatMap fun s => [.newStr 0 str!"SECTION", .newStr 2 s.1] ++ s.2 ++
      [.newStr 0 str!"ENDSEC"]) ++ [.newStr 0 str!"EOF"] ∧
    sections.map Prod.fst = names ∧ ∀ s ∈ sections, SectionBody s.1 s.2

namespace Drawing

variable {Img : Type}

/-- The sections of a file. -/
def sectionNames (d : Drawing Img) : List Str :=
  [str!"HEADER"] ++ (if d.classes = [] then [] else [str!"CLASSES"]) ++ [str!"TABLES"] ++
  (if d.blocks.length = 0 then [] else [str!"BLOCKS"]) ++ [str!"ENTITIES"] ++
  (if .r13 ≤ d.version then [str!"OBJECTS"] else []) ++
  (if .r2000 ≤ d.version ∧ d.thumbnail.isSome then [str!"THUMBNAILIMAGE"] else [])

/-- Data of other applications and names that become pairs with code 0 do not look like brackets. -/
structure Tame (d : Drawing Img) : Prop where
  classes : ¬ .r14 ≤ d.version → ∀ c ∈ d.classes, c.recordName ∉ brackets
  tables : ∀ t, ∀ x ∈ d.tables t, ∀ g ∈ x.ext, AllQuiet g.pairs
  blocks : ∀ b ∈ d.blocks, (∀ g ∈ b.entry.ext, AllQuiet g.pairs) ∧
    ∀ e ∈ b.entities, ∀ g ∈ e.entry.ext, AllQuiet g.pairs
  entities : ∀ e ∈ d.entities, ∀ g ∈ e.entry.ext, AllQuiet g.pairs
  objects : ∀ o ∈ d.objects, (∀ g ∈ o.entry.ext, AllQuiet g.pairs) ∧ AllQuiet o.extra.pairs

end Drawing

end Dxf
