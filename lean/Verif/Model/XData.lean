import Verif.Model.Rd
import Verif.Model.Small
import Verif.Model.Version

/-! Extended data, src/x_data.rs. -/

namespace Dxf

/-- Models `XDataItem`, src/x_data.rs:34-49 (`Vector` has the same three fields as
`Point`). -/
inductive XDataItem where
  | str (s : Str)
  | controlGroup (items : List XDataItem)
  | layerName (s : Str)
  | binaryData (b : List Byte)
  | handle (h : Handle)
  | threeReals (x y z : F64)
  | worldSpacePosition (p : Point)
  | worldSpaceDisplacement (p : Point)
  | worldDirection (v : Point)
  | real (f : F64)
  | distance (f : F64)
  | scaleFactor (f : F64)
  | integer (i : I16)
  | long (i : I32)

/-- Models `XData`, src/x_data.rs:26-29. -/
structure XData where
  name : Str
  items : List XDataItem

namespace XDataItem

/-- Models `read_double`, src/x_data.rs:155-162. -/
def readDouble (expectedCode : Int) : Rd F64 := do
  let pair ← Rd.next
  if pair.code = expectedCode then Rd.lift pair.assertF64
  else Rd.fail (.unexpectedCode pair.code pair.offset)

/-- Models `read_point`/`read_vector`, src/x_data.rs:163-180. -/
def readPoint (first : F64) (expectedCode : Int) : Rd Point := do
  let y ← readDouble (expectedCode + 10)
  let z ← readDouble (expectedCode + 20)
  return ⟨first, y, z⟩

/-- Models `XDataItem::read_item`, src/x_data.rs:94-154; `group` reads the rest of a
control group (the loop at 99-119). -/
def readItem (group : Rd (List XDataItem)) (pair : CodePair) : Rd XDataItem :=
  if pair.code = 1000 then do return .str (← Rd.lift pair.assertString)
  else if pair.code = 1002 then do return .controlGroup (← group)
  else if pair.code = 1003 then do return .layerName (← Rd.lift pair.assertString)
  else if pair.code = 1004 then do
    let s ← Rd.lift pair.assertString
    return .binaryData (← Rd.lift (parseHexString s pair.offset))
  else if pair.code = 1005 then do return .handle (← Rd.lift pair.asHandle)
  else if pair.code = 1010 then do
    let x ← Rd.lift pair.assertF64
    let y ← readDouble (pair.code + 10)
    let z ← readDouble (pair.code + 20)
    return .threeReals x y z
  else if pair.code = 1012 then do
    return .worldSpaceDisplacement (← readPoint (← Rd.lift pair.assertF64) pair.code)
  else if pair.code = 1011 then do
    return .worldSpacePosition (← readPoint (← Rd.lift pair.assertF64) pair.code)
  else if pair.code = 1013 then do
    return .worldDirection (← readPoint (← Rd.lift pair.assertF64) pair.code)
  else if pair.code = 1040 then do return .real (← Rd.lift pair.assertF64)
  else if pair.code = 1041 then do return .distance (← Rd.lift pair.assertF64)
  else if pair.code = 1042 then do return .scaleFactor (← Rd.lift pair.assertF64)
  else if pair.code = 1070 then do return .integer (← Rd.lift pair.assertI16)
  else if pair.code = 1071 then do return .long (← Rd.lift pair.assertI32)
  else Rd.fail (.unexpectedCode pair.code pair.offset)
/-- Models the control group loop, src/x_data.rs:99-119. -/
def readGroup : Nat → Rd (List XDataItem)
  | 0 => Rd.fail .outOfFuel
  | fuel + 1 => do
    let pair ← Rd.next
    if pair.code < 1000 then Rd.fail (.unexpectedCodePair pair)
    else
      let close ←
        if pair.code = 1002 then Rd.lift (pair.assertString.map fun s => decide (s = str!"}")) else pure false
      if close then return []
      else
        let i ← readItem (readGroup fuel) pair
        let is ← readGroup fuel
        return i :: is

mutual
/-- Models `XDataItem::add_code_pairs`, src/x_data.rs:181-241. -/
def pairs : XDataItem → List CodePair
  | .str s => [.newStr 1000 s]
  | .controlGroup items => .newStr 1002 str!"{" :: pairsList items ++ [.newStr 1002 str!"}"]
  | .layerName l => [.newStr 1003 l]
  | .binaryData b => [.newStr 1004 (b.flatMap fmtByteHex)]
  | .handle h => [.newStr 1005 h.asString]
  | .threeReals x y z => [.newF64 1010 x, .newF64 1020 y, .newF64 1030 z]
  | .worldSpacePosition p => [.newF64 1011 p.x, .newF64 1021 p.y, .newF64 1031 p.z]
  | .worldSpaceDisplacement p => [.newF64 1012 p.x, .newF64 1022 p.y, .newF64 1032 p.z]
  | .worldDirection v => [.newF64 1013 v.x, .newF64 1023 v.y, .newF64 1033 v.z]
  | .real f => [.newF64 1040 f]
  | .distance f => [.newF64 1041 f]
  | .scaleFactor f => [.newF64 1042 f]
  | .integer i => [.newI16 1070 i]
  | .long i => [.newI32 1071 i]
/-- Models the loops over items, src/x_data.rs:86-88 and 188-190. -/
def pairsList : List XDataItem → List CodePair
  | [] => []
  | i :: is => pairs i ++ pairsList is
end

end XDataItem

/-- Models the loop of `XData::read_item`, src/x_data.rs:60-76. -/
def XData.readItems : Nat → Rd (List XDataItem)
  | 0 => Rd.fail .outOfFuel
  | fuel + 1 => do
    match ← Rd.next? with
    | none => return []
    | some pair =>
      if pair.code = 0 then
        Rd.putBack pair
        return []
      else if pair.code = 1001 ∨ pair.code < 1000 then
        Rd.putBack pair
        return []
      else
        let i ← XDataItem.readItem (XDataItem.readGroup fuel) pair
        let is ← XData.readItems fuel
        return i :: is

/-- Models `XData::read_item`, src/x_data.rs:52-78. -/
def XData.read (applicationName : Str) : Rd XData := 
  Rd.withFuel fun fuel => do return ⟨applicationName, ← XData.readItems fuel⟩

/-- Models `XData::add_code_pairs`, src/x_data.rs:79-90. -/
def XData.pairs (x : XData) (version : Version) : List CodePair :=
  if Version.r2000 ≤ version then
    .newStr 1001 x.name :: XDataItem.pairsList x.items
  else []

end Dxf
