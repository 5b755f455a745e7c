import Verif.Model.Tables
import Verif.Model.Entities

/-! Blocks: src/block.rs. -/

namespace Dxf

namespace Blocks

/-- The fields of the struct `Block`, src/block.rs:17-42, with the values of `Block::default`,
src/block.rs:100-117, except `entities`, `extension_data_groups` and `x_data`. -/
def decls : List Decl := [
  /- 0 handle -/ ⟨.handle, (0#64 : Handle)⟩,
  /- 1 __owner_handle -/ ⟨.handle, (0#64 : Handle)⟩,
  /- 2 layer -/ ⟨.str, (str!"0" : Str)⟩,
  /- 3 name -/ ⟨.str, ([] : Str)⟩,
  /- 4 flags -/ ⟨.i32, (0#32 : I32)⟩,
  /- 5 base_point -/ ⟨.point, (⟨⟨0#64⟩, ⟨0#64⟩, ⟨0#64⟩⟩ : Point)⟩,
  /- 6 xref_path_name -/ ⟨.str, ([] : Str)⟩,
  /- 7 description -/ ⟨.str, ([] : Str)⟩,
  /- 8 is_in_paperspace -/ ⟨.bool, (false : Bool)⟩]

/-- The match on the codes of a block, src/block.rs:166-178. -/
def arms : List (Arm decls) := [
  ⟨1, .on 6 (.set .str)⟩,
  ⟨2, .on 3 (.set .str)⟩,
  ⟨4, .on 7 (.set .str)⟩,
  ⟨5, .on 0 (.set .handle)⟩,
  ⟨8, .on 2 (.set .str)⟩,
  ⟨10, .on 5 (.axis .x)⟩,
  ⟨20, .on 5 (.axis .y)⟩,
  ⟨30, .on 5 (.axis .z)⟩,
  ⟨67, .on 8 (.set .asBool)⟩,
  ⟨70, .on 4 (.set .i32OfI16)⟩,
  ⟨330, .on 1 (.set .handle)⟩]

/-- The statement for the handle, src/block.rs:209-211. -/
def head (writeHandles : Bool) : List (GCmd decls) :=
  [{ cmd := .field 0 (.one 5 .handle), min := some .r13, cond := fun _ => writeHandles }]

/-- The statements between the extension groups and the entities, src/block.rs:219-249. -/
def cmds : List (GCmd decls) := [
  { cmd := .field 1 (.one 330 .handle), min := some .r13,
    cond := fun r => !(Ty.rustEq .handle (r 1) (0#64 : Handle)) },
  { cmd := .const (.newStr 100 str!"AcDbEntity"), min := some .r13 },
  { cmd := .field 8 (.one 67 .asI16), cond := fun r => (r 8 : Bool) },
  { cmd := .field 2 (.one 8 .str) },
  { cmd := .const (.newStr 100 str!"AcDbBlockBegin"), min := some .r13 },
  { cmd := .field 3 (.one 2 .str) },
  { cmd := .field 4 (.one 70 .i32AsI16) },
  { cmd := .field 5 (.axes [(.x, 10), (.y, 20), (.z, 30)]) },
  { cmd := .computed (t := .str) 3 .str (fun r => (r 3 : Str)), min := some .r12 },
  { cmd := .field 6 (.one 1 .str) },
  { cmd := .field 7 (.one 4 .str), cond := fun r => !(Ty.rustEq .str (r 7) ([] : Str)) }]

/-- What is common to blocks and table entries. -/
def kind : TableKind := ⟨str!"BLOCK", none, decls, arms, head, cmds⟩

/-- The statements after `0/ENDBLK` and the extension groups, src/block.rs:266-281, and before
them, 256-258. -/
def endHead (writeHandles : Bool) : List (GCmd decls) :=
  [{ cmd := .field 0 (.one 5 .handle),
     cond := fun r => writeHandles && !(Ty.rustEq .handle (r 0) (0#64 : Handle)) }]

def endCmds : List (GCmd decls) := [
  { cmd := .field 1 (.one 330 .handle), min := some .r2000,
    cond := fun r => !(Ty.rustEq .handle (r 1) (0#64 : Handle)) },
  { cmd := .const (.newStr 100 str!"AcDbEntity"), min := some .r13 },
  { cmd := .field 8 (.one 67 .asI16), cond := fun r => (r 8 : Bool) },
  { cmd := .field 2 (.one 8 .str) },
  { cmd := .const (.newStr 100 str!"AcDbBlockEnd"), min := some .r13 }]

end Blocks

/-- The struct `Block`. -/
structure Block where
  entry : Entry Blocks.decls
  entities : List Entity

namespace Block

/-- The fields of a block, see `Blocks.decls`. -/
def layer (b : Block) : Str := (b.entry.fields 2 : Str)
def name (b : Block) : Str := (b.entry.fields 3 : Str)
def flags (b : Block) : I32 := (b.entry.fields 4 : I32)
def basePoint (b : Block) : Point := (b.entry.fields 5 : Point)
def xrefPathName (b : Block) : Str := (b.entry.fields 6 : Str)
def description (b : Block) : Str := (b.entry.fields 7 : Str)
def isInPaperspace (b : Block) : Bool := (b.entry.fields 8 : Bool)

/-- Models `Block::default`. -/
def dflt : Block := ⟨Entry.dflt _, []⟩

/-- The pairs from `0/ENDBLK` on, src/block.rs:255-284. -/
def endPairs (v : Version) (writeHandles : Bool) (e : Entry Blocks.decls) : List CodePair :=
  .newStr 0 str!"ENDBLK" :: emitAll (Blocks.endHead writeHandles) v e.fields ++
  (if .r14 ≤ v then e.ext.flatMap ExtGroup.pairs else []) ++
  emitAll Blocks.endCmds v e.fields ++
  e.xdata.flatMap fun x => x.pairs v

/-- Models `Block::add_code_pairs`, src/block.rs:202-285. -/
def pairs (v : Version) (writeHandles : Bool) (b : Block) : List CodePair :=
  Blocks.kind.itemPairs v writeHandles { b.entry with xdata := [] } ++
  b.entities.flatMap (Entity.pairs v writeHandles) ++
  endPairs v writeHandles b.entry

/-- Models the loop of `Block::read_block`, src/block.rs:121-201, for a block of which `b` has
been read.  The loop handles one pair at a time; here the pairs up to the next one with code 0
are read together.  The block is returned instead of being added to the drawing.

With `0/ENDSEC` the code does not make any progress: the pair is put back, reading entities stops
at once, and the loop meets the same pair again. -/
def readFrom : Nat → Block → Rd Block
  | 0, _ => Rd.fail .outOfFuel
  | fuel + 1, b => do
    let e ← Rd.withFuel fun f => itemLoop false (Entry.apply Blocks.arms) f b.entry
    let pair ← Rd.next
    if pair.value = .str str!"ENDBLK" then do
      swallowItem
      return { b with entry := e }
    else do
      Rd.putBack pair
      let es ← readEntities
      readFrom fuel ⟨e, b.entities ++ es⟩

/-- Models `Block::read_block`, src/block.rs:121-201. -/
def read : Rd Block := Rd.withFuel fun fuel => readFrom fuel dflt

end Block

end Dxf
