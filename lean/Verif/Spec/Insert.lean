import Verif.Model.File
import Verif.Lemmas.Rd

/-! Vocabulary for positions in a file at which something may be inserted, and for content that is
not known. -/

namespace Dxf

/-- Some rounds of a loop lead from one place of the input to another. -/
inductive Steps {σ : Type} (g : σ → Rd σ) : σ → Stream → σ → Stream → Prop
  | here {st : σ} {s : Stream} : Steps g st s st s
  | next {st st1 st' : σ} {s t b : Stream} (h : g st s = (.ok st1, t)) (hs : Steps g st1 t st' b) :
    Steps g st s st' b

/-! ### Rounds -/

namespace Drawing

variable {Img : Type}

/-- A whole section is read. -/
def oneSection (codec : ImageCodec Img) (h0 : Header) (d : Drawing Img) : Rd (Drawing Img) := do
  expect str!"SECTION"
  let pair ← Rd.next
  match pair.value with
  | .str name =>
    if pair.code = 2 then do
      let d ← readSection codec h0 name d
      expect str!"ENDSEC"
      return d
    else Rd.fail (.unexpectedCodePair pair)
  | _ => Rd.fail (.unexpectedCodePair pair)

/-- A whole table is read. -/
def wholeTable (d : Drawing Img) : Rd (Drawing Img) := do
  expect str!"TABLE"
  readTable d

/-- A whole block is read. -/
def wholeBlock (d : Drawing Img) : Rd (Drawing Img) := do
  expect str!"BLOCK"
  readBlock d

end Drawing

/-- A whole header variable is read. -/
def oneVariable (h : Header) : Rd Header := do
  let pair ← Rd.next
  if pair.code = 9 then do
    let name ← Rd.lift pair.assertString
    Rd.withFuel fun n => headerValues Header.vars name n h
  else Rd.fail (.unexpectedCodePair pair)

/-- A pair of an item, or the group or the extended data that it begins, is read. -/
def pairBy {σ : Type} (step : CodePair → σ → Rd σ) (st : σ) : Rd σ := do
  let pair ← Rd.next
  if pair.code = 0 then Rd.fail (.unexpectedCodePair pair) else step pair st

/-- A pair of an entity is read. -/
def onePair (k : EName) : Mode × Entry k.decls → Rd (Mode × Entry k.decls) := pairBy k.step

/-- A pair of a table entry or of a block is read. -/
def oneField {ds : List Decl} (arms : List (Arm ds)) : Entry ds → Rd (Entry ds) :=
  pairBy (Entry.apply arms)

/-- An entry of a table is read, or a pair that stands between the entries. -/
def oneEntry (K : TableKind) (xs : List (TableItem K)) : Rd (List (TableItem K)) := do
  let pair ← Rd.next
  if pair.code = 0 then do
    if pair.value = .str K.typeString then do
      let it ← Rd.withFuel fun f => itemLoop false (Entry.apply K.arms) f (Entry.dflt K.decls)
      return xs ++ [it]
    else Rd.fail (.unexpectedCodePair pair)
  else return xs

/-- A class is read, or a pair that stands between the classes. -/
def oneClass (v : Version) (cs : List Class) : Rd (List Class) := do
  let pair ← Rd.next
  if pair.code = 0 then do
    let s ← Rd.lift pair.assertString
    if s = str!"ENDSEC" then Rd.fail (.unexpectedCodePair pair)
    else do
      let c ← Class.read v s
      return cs ++ [c]
  else return cs

/-- A pair of a class is read. -/
def oneClassPair (v : Version) : Class → Rd Class := pairBy fun p c => Rd.lift (Class.apply v p c)

/-- A pair of an object is read. -/
def oneObjectPair (k : OName) : OState k → Rd (OState k) := pairBy k.step

/-- One more item is read. -/
def oneMore {α : Type} (nx : Rd (Option α)) (xs : List α) : Rd (List α) := do
  match ← nx with
  | some x => return xs ++ [x]
  | none => Rd.fail .unexpectedEndOfInput

/-- A whole entity is read.  (Vertices, attributes and the like are entities of their own in a
file.) -/
def oneEntity : List Flat → Rd (List Flat) := oneMore nextEntity

/-- A whole object is read. -/
def oneObject : List Object → Rd (List Object) := oneMore nextObject

/-- The fields of a block are read. -/
def blockFields (e : Entry Blocks.decls) : Rd (Entry Blocks.decls) :=
  Rd.withFuel fun f => itemLoop false (Entry.apply Blocks.arms) f e

/-! ### Places in a file -/

namespace Drawing

variable {Img : Type}

/-- Loading `a ++ b` comes to `b` after some whole sections; `d` is the drawing by then. -/
def AtSection (codec : ImageCodec Img) (h0 : Header) (order : List Str) (a b : List CodePair)
    (d : Drawing Img) : Prop :=
  ∀ d0, new h0 order = .ok d0 →
    Steps (oneSection codec h0) d0.clear (toStream (a ++ b)) d (toStream b)

/-- Loading `a ++ b` comes to `b` right behind the name of a section. -/
inductive InSection (codec : ImageCodec Img) (h0 : Header) (order : List Str) (name : Str) :
    List CodePair → List CodePair → Drawing Img → Prop
  | mk (a : List CodePair) (op nm : CodePair) (b : List CodePair) (d : Drawing Img)
    (hop : op.code = 0 ∧ op.value = .str str!"SECTION") (hnm : nm.code = 2 ∧ nm.value = .str name)
    (h : AtSection codec h0 order a (op :: nm :: b) d) :
    InSection codec h0 order name (a ++ [op, nm]) b d

/-- Loading `a ++ b` comes to `b` right behind the name of a table of kind `t`. -/
inductive InTable (codec : ImageCodec Img) (h0 : Header) (order : List Str) (t : TName) :
    List CodePair → List CodePair → Prop
  | mk (a c : List CodePair) (op nm : CodePair) (b : List CodePair) (d d' : Drawing Img)
    (hop : op.code = 0 ∧ op.value = .str str!"TABLE")
    (hnm : nm.code = 2 ∧ nm.value = .str t.kind.typeString)
    (h : InSection codec h0 order str!"TABLES" a (c ++ op :: nm :: b) d)
    (hs : Steps wholeTable d (toStream (c ++ op :: nm :: b)) d' (toStream (op :: nm :: b))) :
    InTable codec h0 order t (a ++ c ++ [op, nm]) b

/-- Loading `a ++ b` comes to `b` right behind the start of a block. -/
inductive InBlock (codec : ImageCodec Img) (h0 : Header) (order : List Str) :
    List CodePair → List CodePair → Prop
  | mk (a c : List CodePair) (op : CodePair) (b : List CodePair) (d d' : Drawing Img)
    (hop : op.code = 0 ∧ op.value = .str str!"BLOCK")
    (h : InSection codec h0 order str!"BLOCKS" a (c ++ op :: b) d)
    (hs : Steps wholeBlock d (toStream (c ++ op :: b)) d' (toStream (op :: b))) :
    InBlock codec h0 order (a ++ c ++ [op]) b

/-- Loading `a ++ b` comes to `b` at the place where entities begin: those of the drawing or those
of a block. -/
inductive BeforeEntities (codec : ImageCodec Img) (h0 : Header) (order : List Str) :
    List CodePair → List CodePair → Prop
  | drawing (a b : List CodePair) (d : Drawing Img)
    (h : InSection codec h0 order str!"ENTITIES" a b d) : BeforeEntities codec h0 order a b
  | block (a f b : List CodePair) (e : Entry Blocks.decls) (h : InBlock codec h0 order a (f ++ b))
    (hf : blockFields Block.dflt.entry (toStream (f ++ b)) = (.ok e, toStream b)) :
    BeforeEntities codec h0 order (a ++ f) b

end Drawing

/-- The codes of pairs that are not part of the group or the extended data before them. -/
def Outside (c : Int) : Prop := (c = 1001 ∨ c < 1000) ∧ c ≠ 999

/-! ### Unknown content -/

/-- A section with a name that is not one of the seven known ones.  It may contain everything
except the mark of its end. -/
inductive UnknownSection : List CodePair → Prop
  | mk (op name cl : CodePair) (x : Str) (content : List CodePair)
    (hop : op.code = 0 ∧ op.value = .str str!"SECTION") (hname : name.code = 2 ∧ name.value = .str x)
    (hx : x ∉ [str!"HEADER", str!"CLASSES", str!"TABLES", str!"BLOCKS", str!"ENTITIES",
      str!"OBJECTS", str!"THUMBNAILIMAGE"])
    (hcl : cl.code = 0 ∧ cl.value = .str str!"ENDSEC")
    (hcon : ∀ p ∈ content, p.code = 0 → ∃ y, p.value = .str y ∧ y ≠ str!"ENDSEC") :
    UnknownSection (op :: name :: content ++ [cl])

/-- A table of an unknown kind. -/
inductive UnknownTable : List CodePair → Prop
  | mk (op name cl : CodePair) (x : Str) (content : List CodePair)
    (hop : op.code = 0 ∧ op.value = .str str!"TABLE") (hname : name.code = 2 ∧ name.value = .str x)
    (hx : x ∉ [str!"APPID", str!"BLOCK_RECORD", str!"DIMSTYLE", str!"LAYER", str!"LTYPE",
      str!"STYLE", str!"UCS", str!"VIEW", str!"VPORT"])
    (hcl : cl.code = 0 ∧ cl.value = .str str!"ENDTAB")
    (hcon : ∀ p ∈ content, p.code = 0 → ∃ y, p.value = .str y ∧ y ≠ str!"TABLE" ∧
      y ≠ str!"ENDTAB" ∧ y ≠ str!"ENDSEC") :
    UnknownTable (op :: name :: content ++ [cl])

/-- An entity of a kind that the library does not support. -/
inductive UnknownEntity : List CodePair → Prop
  | mk (op : CodePair) (x : Str) (content : List CodePair)
    (hop : op.code = 0 ∧ op.value = .str x) (hx : EName.ofType x = none)
    (he : x ≠ str!"ENDSEC" ∧ x ≠ str!"ENDBLK") (hcon : ∀ p ∈ content, p.code ≠ 0) :
    UnknownEntity (op :: content)

/-- An object of a kind that the library does not support. -/
inductive UnknownObject : List CodePair → Prop
  | mk (op : CodePair) (x : Str) (content : List CodePair)
    (hop : op.code = 0 ∧ op.value = .str x) (hx : OName.ofType x = none)
    (he : x ≠ str!"ENDSEC" ∧ x ≠ str!"ENDBLK") (hcon : ∀ p ∈ content, p.code ≠ 0) :
    UnknownObject (op :: content)

/-- A header variable that is not known, with any number of values. -/
inductive UnknownVariable : List CodePair → Prop
  | mk (op : CodePair) (x : Str) (content : List CodePair)
    (hop : op.code = 9 ∧ op.value = .str x) (hx : ∀ v ∈ Header.vars, v.name ≠ x)
    (hcon : ∀ p ∈ content, p.code ≠ 0 ∧ p.code ≠ 9) : UnknownVariable (op :: content)

/-- A group code that means nothing for an entity: none of the fields is read from it in any
state of the reader, and it does not begin a group or extended data. -/
def EName.Unknown (k : EName) (c : Int) : Prop :=
  c ≠ 0 ∧ c ≠ 102 ∧ c ≠ 999 ∧ c < 1000 ∧ ∀ m, findArm (k.kind.arms m) c = none ∧
    ∀ p : CodePair, p.code = c → k.kind.next m p = m

/-- The kinds of objects with parts that are read together, or that keep all pairs. -/
def OName.nested : List OName := [.sectionSettings, .tableStyle, .xRecordObject]

/-- The same for an object of another kind: neither a field nor one of the lists is concerned. -/
def OName.Unknown (k : OName) (c : Int) : Prop :=
  c ≠ 0 ∧ c ≠ 102 ∧ c ≠ 999 ∧ c < 1000 ∧ k ∉ OName.nested ∧
    ∀ m, findArm (k.kind.arms m) c = none ∧
      ∀ p : CodePair, p.code = c → k.kind.next m p = m ∧ ∀ w, k.odd m p w = none

/-- The same for a class. -/
def Class.Unknown (c : Int) : Prop := c ∉ [0, 1, 2, 3, 90, 91, 280, 281, 999]

/-- The same for an entry of a table or for a block. -/
def UnknownCode {ds : List Decl} (arms : List (Arm ds)) (c : Int) : Prop :=
  c ≠ 0 ∧ c ≠ 102 ∧ c ≠ 999 ∧ c < 1000 ∧ findArm arms c = none

end Dxf
