import Verif.Model.Entry
import Verif.Data.Tables

/-! The symbol tables: what build/table_generator.rs generates from spec/TableSpec.xml. -/

namespace Dxf

/-- A `<Table>` of spec/TableSpec.xml.  The field list starts with `name`, `handle` and
`__owner_handle` (build/table_generator.rs:55-68). -/
structure TableKind where
  typeString : Str
  /-- `MinVersion` of the table -/
  min : Option Version
  decls : List Decl
  arms : List (Arm decls)
  /-- the write statements before the extension groups -/
  head : Bool → List (GCmd decls)
  /-- the write statements after the extension groups -/
  cmds : List (GCmd decls)

namespace Tables

def appId : TableKind :=
  ⟨str!"APPID", none, appIdDecls, appIdArms, appIdHead, appIdCmds⟩
def blockRecord : TableKind :=
  ⟨str!"BLOCK_RECORD", some .r13, blockRecordDecls, blockRecordArms, blockRecordHead,
    blockRecordCmds⟩
def dimStyle : TableKind :=
  ⟨str!"DIMSTYLE", none, dimStyleDecls, dimStyleArms, dimStyleHead, dimStyleCmds⟩
def lineType : TableKind :=
  ⟨str!"LTYPE", none, lineTypeDecls, lineTypeArms, lineTypeHead, lineTypeCmds⟩
def layer : TableKind :=
  ⟨str!"LAYER", none, layerDecls, layerArms, layerHead, layerCmds⟩
def style : TableKind :=
  ⟨str!"STYLE", none, styleDecls, styleArms, styleHead, styleCmds⟩
def ucs : TableKind :=
  ⟨str!"UCS", none, ucsDecls, ucsArms, ucsHead, ucsCmds⟩
def view : TableKind :=
  ⟨str!"VIEW", none, viewDecls, viewArms, viewHead, viewCmds⟩
def viewPort : TableKind :=
  ⟨str!"VPORT", none, viewPortDecls, viewPortArms, viewPortHead, viewPortCmds⟩

/-- The tables in the order of spec/TableSpec.xml, which is the order of writing. -/
def kinds : List TableKind :=
  [appId, blockRecord, dimStyle, lineType, layer, style, ucs, view, viewPort]

end Tables

/-- A table entry. -/
abbrev TableItem (K : TableKind) := Entry K.decls

/-- Models the generated `read_*` of one table, build/table_generator.rs:180-318.  The entries
are returned instead of being added to the drawing one by one. -/
def TableKind.read (K : TableKind) : Nat → Rd (List (TableItem K))
  | 0 => Rd.fail .outOfFuel
  | fuel + 1 => do
    let pair ← Rd.next
    if pair.code = 0 then do
      let s ← Rd.lift pair.assertString
      if s ≠ K.typeString then do
        Rd.putBack pair
        return []
      else do
        let it ← Rd.withFuel fun f => itemLoop false (Entry.apply K.arms) f (Entry.dflt K.decls)
        let rest ← TableKind.read K fuel
        return it :: rest
    else TableKind.read K fuel

/-- Models the body of the loop of a generated `add_*_code_pairs`,
build/table_generator.rs:379-500. -/
def TableKind.itemPairs (K : TableKind) (v : Version) (writeHandles : Bool) (it : TableItem K) :
    List CodePair :=
  .newStr 0 K.typeString :: emitAll (K.head writeHandles) v it.fields ++
  (if .r14 ≤ v then it.ext.flatMap ExtGroup.pairs else []) ++
  emitAll K.cmds v it.fields ++
  it.xdata.flatMap fun x => x.pairs v

/-- Models a generated `add_*_code_pairs`, build/table_generator.rs:356-510. -/
def TableKind.pairs (K : TableKind) (v : Version) (writeHandles : Bool)
    (items : List (TableItem K)) : List CodePair :=
  if items.isEmpty then []
  else
    [.newStr 0 str!"TABLE", .newStr 2 K.typeString, .newStr 100 str!"AcDbSymbolTable",
      .newI16 70 0#16] ++
    items.flatMap (K.itemPairs v writeHandles) ++ [.newStr 0 str!"ENDTAB"]

end Dxf
