import Verif.Model.Drawing
import Verif.Model.Thumbnail

/-! Loading and saving a drawing as a list of code pairs: the part of src/drawing.rs between
`Drawing::code_pairs` and `Drawing::load_from_iter`. -/

namespace Dxf

namespace Drawing

variable {Img : Type}

/-! ### Saving -/

/-- The field `header.version`. -/
def version (d : Drawing Img) : Version := d.header.version

/-- `write_handles`, src/drawing.rs:178; field 140 is `handles_enabled`. -/
def writeHandles (d : Drawing Img) : Bool :=
  decide (.r13 ≤ d.version) || (d.header 140 : Bool)

/-- `0/SECTION`, `2/name`, the pairs, `0/ENDSEC`. -/
def inSection (name : Str) (body : List CodePair) : List CodePair :=
  .newStr 0 str!"SECTION" :: .newStr 2 name :: body ++ [.newStr 0 str!"ENDSEC"]

/-- Models `add_classes_pairs`, src/drawing.rs:904-916. -/
def classPairs (d : Drawing Img) : List CodePair :=
  if d.classes.isEmpty then []
  else inSection str!"CLASSES" (d.classes.flatMap (Class.pairs d.version))

/-- Models one step of `add_table_code_pairs`, build/table_generator.rs:320-348. -/
def oneTable (d : Drawing Img) (t : TName) : List CodePair :=
  if (match t.kind.min with | some m => decide (m ≤ d.version) | none => true) then
    t.kind.pairs d.version d.writeHandles (d.tables t)
  else []

/-- Models `add_tables_pairs`, src/drawing.rs:917-922. -/
def tablePairs (d : Drawing Img) : List CodePair :=
  inSection str!"TABLES" (TName.all.flatMap d.oneTable)

/-- Models `add_blocks_pairs`, src/drawing.rs:923-935. -/
def blockPairs (d : Drawing Img) : List CodePair :=
  if d.blocks.isEmpty then []
  else inSection str!"BLOCKS" (d.blocks.flatMap (Block.pairs d.version d.writeHandles))

/-- Models `add_entities_pairs`, src/drawing.rs:936-944. -/
def entityPairs (d : Drawing Img) : List CodePair :=
  inSection str!"ENTITIES" (d.entities.flatMap (Entity.pairs d.version d.writeHandles))

/-- Models `add_objects_pairs`, src/drawing.rs:945-955.  Writing an object can panic. -/
def objectPairs (d : Drawing Img) : Except DxfErr (List CodePair) :=
  if .r13 ≤ d.version then do
    let pairs ← d.objects.mapM (Object.pairs d.version)
    return inSection str!"OBJECTS" pairs.flatten
  else return []

/-- Models `add_thumbnail_pairs`, src/drawing.rs:956-973. -/
def thumbnailPairs (codec : ImageCodec Img) (d : Drawing Img) : Except DxfErr (List CodePair) :=
  if .r2000 ≤ d.version then
    match d.thumbnail with
    | some img => Thumbnail.pairs codec img
    | none => .ok []
  else .ok []

/-- Models `Drawing::code_pairs`, src/drawing.rs:177-189. -/
def codePairs (codec : ImageCodec Img) (d : Drawing Img) : Except DxfErr (List CodePair) := do
  let objects ← d.objectPairs
  let thumbnail ← d.thumbnailPairs codec
  return d.header.pairs ++ d.classPairs ++ d.tablePairs ++ d.blockPairs ++ d.entityPairs ++
    objects ++ thumbnail ++ [.newStr 0 str!"EOF"]

/-! ### Loading -/

/-- Adds a table entry that has been read, build/table_generator.rs:294-305. -/
def addRead (t : TName) (d : Drawing Img) (x : t.Item) : Except DxfErr (Drawing Img) :=
  if t.handle x = 0#64 then do
    let (_, d) ← d.add t x
    return d
  else d.addNoHandle t x

/-- Adds a block that has been read, src/block.rs:150-154. -/
def addReadBlock (d : Drawing Img) (b : Block) : Except DxfErr (Drawing Img) := do
  let (_, d) ← if b.handle = 0#64 then d.addBlock b else d.addBlockNoHandle b
  return d

/-- Adds an entity that has been read, src/drawing.rs:1071-1075. -/
def addReadEntity (d : Drawing Img) (e : Entity) : Except DxfErr (Drawing Img) :=
  if e.handle = 0#64 then do
    let (_, d) ← d.addEntity e
    return d
  else d.addEntityNoHandle e

/-- Adds an object that has been read, src/drawing.rs:1082-1086. -/
def addReadObject (d : Drawing Img) (o : Object) : Except DxfErr (Drawing Img) :=
  if o.handle = 0#64 then do
    let (_, d) ← d.addObject o
    return d
  else d.addObjectNoHandle o

/-- `Some(Ok(CodePair { code: 0, value: Str(s) })) if s == mark => (), Some(Ok(pair)) => Err(
UnexpectedCodePair), Some(Err(e)) => Err(e), None => Err(UnexpectedEndOfInput)`. -/
def expect (mark : Str) : Rd Unit := do
  let pair ← Rd.next
  if pair.code = 0 ∧ pair.value = .str mark then return ()
  else Rd.fail (.unexpectedCodePair pair)

/-- Models `swallow_table`, src/drawing.rs:1128-1148. -/
def swallowTable : Nat → Rd Unit
  | 0 => Rd.fail .outOfFuel
  | fuel + 1 => do
    let pair ← Rd.next
    if pair.code = 0 then do
      let s ← Rd.lift pair.assertString
      if s = str!"TABLE" ∨ s = str!"ENDSEC" ∨ s = str!"ENDTAB" then Rd.putBack pair
      else swallowTable fuel
    else swallowTable fuel

/-- The match on the type of a table, build/table_generator.rs:155-163. -/
def tableOf (s : Str) : Option TName := TName.all.find? fun t => t.kind.typeString == s

/-- Models `read_specific_table`, build/table_generator.rs:145-178.  The entries of a table are
added after all of them have been read; adding can only panic, and an error drops the drawing. -/
def readTable (d : Drawing Img) : Rd (Drawing Img) := do
  let pair ← Rd.next
  if pair.code ≠ 2 then Rd.fail (.expectedTableType pair.offset)
  else do
    let s ← Rd.lift pair.assertString
    match tableOf s with
    | some t => do
      let items ← Rd.withFuel t.kind.read
      let d ← Rd.lift (items.foldlM (addRead t) d)
      expect str!"ENDTAB"
      return d
    | none => do
      Rd.withFuel swallowTable
      expect str!"ENDTAB"
      return d

/-- A block that is read and added, src/block.rs:121-201. -/
def readBlock (d : Drawing Img) : Rd (Drawing Img) := do
  let b ← Block.read
  Rd.lift (d.addReadBlock b)

/-- Models `read_section_item`, src/drawing.rs:1091-1127. -/
def readItems (type : Str) (callback : Drawing Img → Rd (Drawing Img)) :
    Nat → Drawing Img → Rd (Drawing Img)
  | 0, _ => Rd.fail .outOfFuel
  | fuel + 1, d => do
    let pair ← Rd.next
    if pair.code = 0 then do
      let s ← Rd.lift pair.assertString
      if s = str!"ENDSEC" then do
        Rd.putBack pair
        return d
      else if s = type then do
        let d ← callback d
        readItems type callback fuel d
      else Rd.fail (.unexpectedCodePair pair)
    else Rd.fail (.unexpectedCodePair pair)

/-- Models `read_entities`, src/drawing.rs:1066-1078. -/
def readEntitySection (d : Drawing Img) : Rd (Drawing Img) := do
  let es ← readEntities
  Rd.lift (es.foldlM addReadEntity d)

/-- Models `read_objects`, src/drawing.rs:1079-1090.  The objects are added after all of them have
been read; adding can only panic. -/
def readObjectSection (d : Drawing Img) : Rd (Drawing Img) := do
  let os ← readObjects
  Rd.lift (os.foldlM addReadObject d)

/-- Models `swallow_section`, src/drawing.rs:1050-1065. -/
def swallowSection : Nat → Rd Unit
  | 0 => Rd.fail .outOfFuel
  | fuel + 1 => do
    match ← Rd.next? with
    | none => return ()
    | some pair =>
      if pair.code = 0 then do
        let s ← Rd.lift pair.assertString
        if s = str!"ENDSEC" then Rd.putBack pair
        else swallowSection fuel
      else swallowSection fuel

/-- The match on the name of a section, src/drawing.rs:988-1004.  `h0` is the value of
`Header::default()`. -/
def readSection (codec : ImageCodec Img) (h0 : Header) (name : Str) (d : Drawing Img) :
    Rd (Drawing Img) :=
  if name = str!"HEADER" then do
    let h ← Header.read h0
    return { d with header := h }
  else if name = str!"CLASSES" then do
    let cs ← Rd.withFuel (Class.readAll d.version)
    return { d with classes := d.classes ++ cs }
  else if name = str!"TABLES" then Rd.withFuel fun fuel => readItems str!"TABLE" readTable fuel d
  else if name = str!"BLOCKS" then Rd.withFuel fun fuel => readItems str!"BLOCK" readBlock fuel d
  else if name = str!"ENTITIES" then d.readEntitySection
  else if name = str!"OBJECTS" then d.readObjectSection
  else if name = str!"THUMBNAILIMAGE" then do
    let img ← Thumbnail.read codec
    return { d with thumbnail := img }
  else do
    Rd.withFuel swallowSection
    return d

/-- Models `read_sections`, src/drawing.rs:974-1049. -/
def readSections (codec : ImageCodec Img) (h0 : Header) : Nat → Drawing Img → Rd (Drawing Img)
  | 0, _ => Rd.fail .outOfFuel
  | fuel + 1, d => do
    match ← Rd.next? with
    | none => return d
    | some pair =>
      if pair.code = 0 then do
        let s ← Rd.lift pair.assertString
        if s = str!"EOF" then do
          Rd.putBack pair
          return d
        else if s = str!"SECTION" then do
          let pair ← Rd.next
          match pair.value with
          | .str name =>
            if pair.code = 2 then do
              let d ← readSection codec h0 name d
              expect str!"ENDSEC"
              readSections codec h0 fuel d
            else Rd.fail (.unexpectedCodePair pair)
          | _ => Rd.fail (.unexpectedCodePair pair)
        else Rd.fail (.unexpectedCodePair pair)
      else Rd.fail (.unexpectedCodePair pair)

/-- The end of `load_from_iter`, src/drawing.rs:135-147. -/
def finish (d : Drawing Img) : Rd (Drawing Img) := do
  match ← Rd.next? with
  | none => return d
  | some pair =>
    if pair.code = 0 ∧ pair.value = .str str!"EOF" then return d
    else Rd.fail (.unexpectedCodePair pair)

/-- Models `load_from_iter`, src/drawing.rs:130-148.  `h0` stands for the values of
`Header::default()`, which depend on the time and on random numbers, and `order` for the order of
the names in a hash set (see `normalize`). -/
def load (codec : ImageCodec Img) (h0 : Header) (order : List Str) : Rd (Drawing Img) := do
  let d ← Rd.lift (new h0 order)
  let d ← Rd.withFuel fun fuel => readSections codec h0 fuel d.clear
  d.finish

end Drawing

end Dxf
