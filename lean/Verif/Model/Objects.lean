import Verif.Data.ObjectNames
import Verif.Model.ObjectParts
import Verif.Model.Entities
import Verif.Model.Date

/-! Objects: src/object.rs and src/object_iter.rs. -/

namespace Dxf

namespace OName

/-- All fields of an object of a kind that are not lists of structs or maps: those of
`ObjectCommon`, then the specific ones. -/
abbrev decls (k : OName) : List Decl := objectDecls ++ k.kind.spec

/-- Models `ObjectType::from_type_string`, build/object_generator.rs:427-444. -/
def ofType (s : Str) : Option OName := all.find? fun k => k.kind.names.contains s

/-- Models `ObjectType::is_supported_on_version`, build/object_generator.rs:390-425. -/
def supported (k : OName) (v : Version) : Bool :=
  (match k.kind.min with
    | some m => decide (m ≤ v)
    | none => true) &&
  (match k.kind.max with
    | some m => decide (v ≤ m)
    | none => true)

end OName

/-- Models `MLineStyleElement`, src/object.rs:35-57. -/
structure MElement where
  offset : F64
  color : I16
  lineType : Str
  deriving DecidableEq

/-- The fields that are lists of structs, maps or matrices (apart from the matrices of
`Material`, which are records fields).  Kinds without such a field have the default. -/
structure OExtra where
  /-- `value_handles` of `Dictionary` and `DictionaryWithDefault` -/
  dict : Dict := []
  /-- `DataTable` without `field` -/
  table : DataTable := {}
  /-- `geometry_settings` of `SectionSettings` -/
  sections : List SectionType := []
  /-- `cell_styles` of `TableStyle` -/
  cells : List CellStyle := []
  /-- `data_pairs` of `XRecordObject` -/
  pairs : List CodePair := []
  /-- `geo_mesh_points` of `GeoData`: source and destination -/
  mesh : List (Point × Point) := []
  /-- `face_indices` of `GeoData` -/
  faces : List Point := []
  /-- `elements` of `MLineStyle` -/
  elements : List MElement := []
  /-- `clip_boundary_definition_points` of `SpatialFilter` -/
  points : List Point := []
  /-- `inverse_transformation_matrix` of `SpatialFilter` -/
  inverse : Matrix := .identity
  /-- `transformation_matrix` of `SpatialFilter` -/
  transform : Matrix := .identity
  /-- `dates` of `SunStudy` -/
  dates : List Date := []
  /-- `hours` of `SunStudy` -/
  hours : List I32 := []

/-- The struct `Object`. -/
structure Object where
  kind : OName
  entry : Entry kind.decls
  extra : OExtra

/-! ### Writing -/

/-- The lists written between the first and the second part of the fields: the points of a
`SpatialFilter` (spec/ObjectsSpec.xml) and the dates of a `SunStudy` (src/object.rs:1597-1600). -/
def OName.mid (k : OName) (x : OExtra) : List CodePair :=
  match k with
  | .spatialFilter =>
    .newI16 70 (BitVec.ofNat 16 x.points.length) ::
      x.points.flatMap fun p => [.newF64 10 p.x, .newF64 20 p.y, .newF64 30 p.z]
  | .sunStudy =>
    .newI32 91 (BitVec.ofNat 32 x.dates.length) ::
      x.dates.map fun d => .newI32 90 (BitVec.ofInt 32 (d.asDouble.toIntSat (-2 ^ 31) (2 ^ 31 - 1)))
  | _ => []

/-- The hours of a `SunStudy`, written before the third part of the fields
(src/object.rs:1605-1608). -/
def OName.mid2 (k : OName) (x : OExtra) : List CodePair :=
  match k with
  | .sunStudy =>
    .newI16 73 (BitVec.ofNat 16 x.hours.length) :: x.hours.map fun h => .newI16 290 (h.setWidth 16)
  | _ => []

/-- `item.x as i32` (spec/ObjectsSpec.xml, `GeoData`). -/
def F64.asI32 (f : F64) : I32 := BitVec.ofInt 32 (f.toIntSat (-2 ^ 31) (2 ^ 31 - 1))

/-- What is written for a mesh point (spec/ObjectsSpec.xml, `GeoData`). -/
def meshPairs (s d : Point) : List CodePair :=
  [.newF64 13 s.x, .newF64 23 s.y, .newF64 14 d.x, .newF64 24 d.y]

/-- What is written for a face (spec/ObjectsSpec.xml, `GeoData`). -/
def facePairs (f : Point) : List CodePair :=
  [.newI32 97 f.x.asI32, .newI32 98 f.y.asI32, .newI32 99 f.z.asI32]

/-- What is written for an element (spec/ObjectsSpec.xml, `MLineStyle`). -/
def MElement.pairs (e : MElement) : List CodePair :=
  [.newF64 49 e.offset, .newI16 62 e.color, .newStr 6 e.lineType]

/-- `is_hard_owner` of a dictionary. -/
def hardOwner (r : Rec OName.dictionary.decls) : Bool := (r 2 : Bool)

/-- The lists written after the fields (src/object.rs:1488-1656 and spec/ObjectsSpec.xml). -/
def Object.tail : Object → Except DxfErr (List CodePair)
  | ⟨.dictionary, e, x⟩ => .ok (x.dict.pairs (bif hardOwner e.fields then 360 else 350))
  | ⟨.dictionaryWithDefault, _, x⟩ => .ok (x.dict.pairs 350)
  | ⟨.dataTable, _, x⟩ => x.table.pairs
  | ⟨.geoData, _, x⟩ =>
    .ok (.newI32 93 (BitVec.ofNat 32 x.mesh.length) ::
      (x.mesh.flatMap fun (s, d) => meshPairs s d) ++
      .newI32 96 (BitVec.ofNat 32 x.faces.length) :: x.faces.flatMap facePairs)
  | ⟨.lightList, e, _⟩ =>
    let lights : List Handle := (e.fields 3 : List Handle)
    .ok (.newI32 90 (BitVec.ofNat 32 lights.length) ::
      lights.flatMap fun h => [.newStr 5 (Handle.asString h), .newStr 1 []])
  | ⟨.mLineStyle, _, x⟩ =>
    .ok (.newI16 71 (BitVec.ofNat 16 x.elements.length) :: x.elements.flatMap MElement.pairs)
  | ⟨.sectionSettings, _, x⟩ =>
    .ok (.newI32 91 (BitVec.ofNat 32 x.sections.length) :: x.sections.flatMap SectionType.pairs)
  | ⟨.spatialFilter, _, x⟩ =>
    .ok ((x.inverse.values4x3 ++ x.transform.values4x3).map fun f => .newF64 40 f)
  | ⟨.tableStyle, _, x⟩ => .ok (x.cells.flatMap CellStyle.pairs)
  | ⟨.xRecordObject, _, x⟩ => .ok x.pairs
  | _ => .ok []

/-- The pairs of an object up to the lists after its fields: src/object.rs:1476-1480 with
`ObjectCommon::add_code_pairs`, build/object_generator.rs:201-212, and the generated or custom
writers. -/
def Object.front (v : Version) (o : Object) : List CodePair :=
  .newStr 0 o.kind.kind.typeString :: emitAll (objectHead o.kind.kind.spec) v o.entry.fields ++
  (if .r14 ≤ v then o.entry.ext.flatMap ExtGroup.pairs else []) ++
  emitAll (objectCmds o.kind.kind.spec ++ o.kind.kind.cmds) v o.entry.fields ++
  o.kind.mid o.extra ++ emitAll o.kind.kind.cmds2 v o.entry.fields ++
  o.kind.mid2 o.extra ++ emitAll o.kind.kind.cmds3 v o.entry.fields

/-- Models `Object::add_code_pairs`, src/object.rs:1475-1487; the error is a panic. -/
def Object.pairs (v : Version) (o : Object) : Except DxfErr (List CodePair) :=
  if o.kind.supported v then do
    let tail ← o.tail
    return o.front v ++ tail ++ o.entry.xdata.flatMap fun x => x.pairs v
  else return []

/-! ### Reading -/

/-- The fields that are lists and the other local variables of the hand-written readers. -/
structure OWork where
  extra : OExtra := {}
  /-- `last_entry_name` (src/object.rs:450, 483) -/
  lastName : Str := []
  /-- `read_column_count`, `read_row_count`, `current_column`, `current_row`,
  `current_2d_point` and `current_3d_point` (src/object.rs:321-328).  `created_table` holds if
  both of the first two hold. -/
  gotCols : Bool := false
  gotRows : Bool := false
  col : Nat := 0
  row : Nat := 0
  p2 : Point := ⟨.zero, .zero, .zero⟩
  p3 : Point := ⟨.zero, .zero, .zero⟩
  /-- `set_inverse_matrix` and `matrix_list` (src/object.rs:1187-1188) -/
  gotInverse : Bool := false
  matrix : List F64 := []
  /-- `julian_day` (src/object.rs:1282) -/
  day : Option I32 := none

namespace OWork

/-- `apply_custom_reader_dictionary`, src/object.rs:445-477: the pairs of the entries. -/
def dictionary (pair : CodePair) (w : OWork) : Option (Rd OWork) :=
  if pair.code = 3 then some do
    let s ← Rd.lift pair.assertString
    return { w with lastName := s }
  else if pair.code = 350 ∨ pair.code = 360 then some do
    let h ← Rd.lift pair.asHandle
    return { w with extra := { w.extra with dict := w.extra.dict.insert w.lastName h } }
  else none

/-- `data.set_value(current_row, current_column, _)`. -/
def setValue (w : OWork) (x : DataTableValue) : Rd OWork := do
  let t ← Rd.lift (w.extra.table.setValue w.row w.col x)
  return { w with extra := { w.extra with table := t } }

/-- The creation of the table once both counts are known, src/object.rs:431-439.  (It is done
for the pair that makes both flags true; the flags were not both true before it.) -/
def createTable (w : OWork) : OWork :=
  { w with extra := { w.extra with table := { w.extra.table with
      values := List.replicate w.extra.table.rowCount
        (List.replicate w.extra.table.columnCount none) } } }

/-- `apply_custom_reader_datatable`, src/object.rs:316-444, without `field`. -/
def dataTable (pair : CodePair) (w : OWork) : Option (Rd OWork) :=
  let t := w.extra.table
  match pair.code with
  | 1 => some do
    let s ← Rd.lift pair.assertString
    return { w with extra := { w.extra with table := { t with name := s } } }
  | 90 => some do
    let n ← Rd.lift pair.assertI32
    let w' := { w with
      gotCols := true
      extra := { w.extra with table := { t with columnCount := DataTable.usize n } } }
    return bif w.gotRows && !w.gotCols then w'.createTable else w'
  | 91 => some do
    let n ← Rd.lift pair.assertI32
    let w' := { w with
      gotRows := true
      extra := { w.extra with table := { t with rowCount := DataTable.usize n } } }
    return bif w.gotCols && !w.gotRows then w'.createTable else w'
  | 2 => some do
    let s ← Rd.lift pair.assertString
    return { w with extra := { w.extra with table := { t with columnNames := t.columnNames ++ [s] } } }
  | 92 => some do
    let _ ← Rd.lift pair.assertI32
    return { w with col := w.col + 1, row := 0 }
  | 3 => some do
    let s ← Rd.lift pair.assertString
    w.setValue (.str s)
  | 40 => some do
    let f ← Rd.lift pair.assertF64
    w.setValue (.double f)
  | 71 => some do
    let n ← Rd.lift pair.assertI16
    w.setValue (.boolean (decide (n = 1#16)))
  | 93 => some do
    let n ← Rd.lift pair.assertI32
    w.setValue (.integer n)
  | 10 => some do
    let f ← Rd.lift pair.assertF64
    return { w with p2 := { w.p2 with x := f } }
  | 20 => some do
    let f ← Rd.lift pair.assertF64
    return { w with p2 := { w.p2 with y := f } }
  | 30 => some do
    let f ← Rd.lift pair.assertF64
    let w' ← w.setValue (.point2D { w.p2 with z := f })
    return { w' with p2 := ⟨.zero, .zero, .zero⟩ }
  | 11 => some do
    let f ← Rd.lift pair.assertF64
    return { w with p3 := { w.p3 with x := f } }
  | 21 => some do
    let f ← Rd.lift pair.assertF64
    return { w with p3 := { w.p3 with y := f } }
  | 31 => some do
    let f ← Rd.lift pair.assertF64
    let w' ← w.setValue (.point3D { w.p3 with z := f })
    return { w' with p3 := ⟨.zero, .zero, .zero⟩ }
  | c =>
    if c ∈ [(330 : Int), 331, 340, 350, 360] ∧ (w.gotRows || w.gotCols) = true then some do
      let h ← Rd.lift pair.asHandle
      w.setValue (.handle h)
    else none

/-- `apply_custom_reader_sectionsettings`, src/object.rs:1131-1135. -/
def sections (pair : CodePair) (w : OWork) : Option (Rd OWork) :=
  if pair.code = 1 then some do
    let ss ← Rd.withFuel SectionType.readAll
    return { w with extra := { w.extra with sections := w.extra.sections ++ ss } }
  else none

/-- `vec_last!(sf.clip_boundary_definition_points)` with an assignment
(src/helper_functions.rs:426-433). -/
def editLast (w : OWork) (f : Point → Point) : Except DxfErr OWork :=
  match w.extra.points.getLast? with
  | none => .error .unexpectedEmptySet
  | some p => .ok { w with extra := { w.extra with points := w.extra.points.dropLast ++ [f p] } }

/-- A matrix value of a `SpatialFilter`, src/object.rs:1213-1245. -/
def matrixValue (w : OWork) (f : F64) : OWork :=
  match Matrix.from4x3 (w.matrix ++ [f]) with
  | none => { w with matrix := w.matrix ++ [f] }
  | some m =>
    bif w.gotInverse then
      { w with
        matrix := []
        extra := { w.extra with transform := m } }
    else
      { w with
        matrix := []
        gotInverse := true
        extra := { w.extra with inverse := m } }

/-- `apply_custom_reader_spatialfilter`, src/object.rs:1181-1274: points and matrices. -/
def spatial (m : OMode) (pair : CodePair) (w : OWork) : Option (Rd OWork) :=
  if pair.code = 10 then some do
    let f ← Rd.lift pair.assertF64
    return { w with extra := { w.extra with points := w.extra.points ++ [⟨f, .zero, .zero⟩] } }
  else if pair.code = 20 then some (Rd.lift do
    let f ← pair.assertF64
    w.editLast fun p => { p with y := f })
  else if pair.code = 30 then some (Rd.lift do
    let f ← pair.assertF64
    w.editLast fun p => { p with z := f })
  else if pair.code = 40 ∧ m.a = true then some do
    let f ← Rd.lift pair.assertF64
    return w.matrixValue f
  else none

/-- `date.add(Duration::seconds(_))`, src/object.rs:1321-1323. -/
def addSeconds (d : Date) (s : Int) : Except DxfErr Date :=
  if Date.maxSecs * 1000000000 + 999999999 < d + s * 1000000000 then .error .panic
  else .ok (d + s * 1000000000)

/-- `apply_custom_reader_sunstudy`, src/object.rs:1275-1385: dates and hours. -/
def sunStudy (m : OMode) (pair : CodePair) (w : OWork) : Option (Rd OWork) :=
  if pair.code = 90 ∧ 90 ∈ m.seen then some
    (match w.day with
      | none => do
        let n ← Rd.lift pair.assertI32
        return { w with day := some n }
      | some jd => do
        let d ← Rd.lift (Date.ofDouble (F64.ofInt jd.toInt))
        let n ← Rd.lift pair.assertI32
        let d' ← Rd.lift (addSeconds d n.toInt)
        return { w with
          day := none
          extra := { w.extra with dates := w.extra.dates ++ [d'] } })
  else if pair.code = 290 ∧ m.a = true then some do
    let n ← Rd.lift pair.assertI16
    return { w with extra := { w.extra with hours := w.extra.hours ++ [n.signExtend 32] } }
  else none

/-- `apply_custom_reader_tablestyle`, src/object.rs:1398-1403. -/
def cells (pair : CodePair) (w : OWork) : Option (Rd OWork) :=
  if pair.code = 7 then some do
    Rd.putBack pair
    let c ← Rd.withFuel fun fuel => CellStyle.read fuel false (Rec.dflt _)
    return { w with extra := { w.extra with cells := w.extra.cells ++ [c] } }
  else none

/-- `apply_custom_reader_xrecordobject`, src/object.rs:1435-1474: the data. -/
def xRecord (m : OMode) (pair : CodePair) (w : OWork) : Option (Rd OWork) :=
  if m.a = true ∨ (pair.code ≠ 280 ∧ pair.code ≠ 100 ∧ Obj.xRecordCommon pair.code = false) then
    some do return { w with extra := { w.extra with pairs := w.extra.pairs ++ [pair] } }
  else none

end OWork

/-- What the hand-written readers do with the pairs that do not go to plain fields
(`apply_custom_reader`, src/object.rs:272-315). -/
def OName.odd (k : OName) (m : OMode) (pair : CodePair) (w : OWork) : Option (Rd OWork) :=
  match k with
  | .dictionary => w.dictionary pair
  | .dictionaryWithDefault => w.dictionary pair
  | .dataTable => w.dataTable pair
  | .sectionSettings => w.sections pair
  | .spatialFilter => w.spatial m pair
  | .sunStudy => w.sunStudy m pair
  | .tableStyle => w.cells pair
  | .xRecordObject => w.xRecord m pair
  | _ => none

/-- The state of a reader. -/
abbrev OState (k : OName) : Type := OMode × Entry k.decls × OWork

/-- What a reader does with one pair. -/
def OName.step (k : OName) (pair : CodePair) (st : OState k) : Rd (OState k) :=
  match k.odd st.1 pair st.2.2 with
  | some act => do
    let w ← act
    return (k.kind.next st.1 pair, st.2.1, w)
  | none => do
    let e ← Entry.apply (k.kind.arms st.1) pair st.2.1
    return (k.kind.next st.1 pair, e, st.2.2)

/-- `post_parse` of an `AcadProxyObject`, src/object.rs:166-182. -/
def proxyPost (r : Rec OName.acadProxyObject.decls) : Rec OName.acadProxyObject.decls :=
  let cat (a b c d e : List Str) : List Str := a ++ b ++ c ++ d ++ e
  let ids : List Str := cat (r 6) (r 7) (r 8) (r 9) (r 10)
  ((((r.set 6 ids).set 7 ([] : List Str)).set 8 ([] : List Str)).set 9 ([] : List Str)).set 10
    ([] : List Str)

/-- `post_parse` of a `GeoData`, src/object.rs:183-211: the lists of coordinates are used up. -/
def geoPost (r : Rec OName.geoData.decls) (x : OExtra) : Rec OName.geoData.decls × OExtra :=
  let nil : List F64 := []
  (((((((r.set 23 nil).set 24 nil).set 25 nil).set 26 nil).set 28 nil).set 29 nil).set 30 nil,
    { x with
      mesh := x.mesh ++ (combinePoints2 (r 23 : List F64) (r 24 : List F64)).zip
        (combinePoints2 (r 25 : List F64) (r 26 : List F64))
      faces := x.faces ++
        combinePoints3 (r 28 : List F64) (r 29 : List F64) (r 30 : List F64) })

/-- `post_parse` of a `VbaProject`, src/object.rs:255-266. -/
def vbaPost (r : Rec OName.vbaProject.decls) : Rec OName.vbaProject.decls :=
  (r.set 2 (List.flatten (r 3 : List (List Byte)) : List Byte)).set 3 ([] : List (List Byte))

/-- Models `Object::post_parse`, src/object.rs:164-271.  It is not called for the kinds with a
hand-written reader, so the cases of `Material` and `MLineStyle` are never reached. -/
def Object.post : Object → Object
  | ⟨.acadProxyObject, e, x⟩ => ⟨.acadProxyObject, { e with fields := proxyPost e.fields }, x⟩
  | ⟨.geoData, e, x⟩ =>
    ⟨.geoData, { e with fields := (geoPost e.fields x).1 }, (geoPost e.fields x).2⟩
  | ⟨.vbaProject, e, x⟩ => ⟨.vbaProject, { e with fields := vbaPost e.fields }, x⟩
  | o => o

/-- Models `Object::read`, src/object.rs:96-157. -/
def readObject : Nat → Rd (Option Object)
  | 0 => Rd.fail .outOfFuel
  | fuel + 1 => do
    let pair ← Rd.next
    if pair.code = 0 then do
      let s ← Rd.lift pair.assertString
      if s = str!"ENDSEC" ∨ s = str!"ENDBLK" then do
        Rd.putBack pair
        return none
      else
        match OName.ofType s with
        | none => do
          swallowItem
          readObject fuel
        | some k => do
          let st ← Rd.withFuel fun fuel =>
            itemLoop k.kind.eof k.step fuel (OMode.start, Entry.dflt k.decls, {})
          return some (Object.post ⟨k, st.2.1, st.2.2.extra⟩)
    else Rd.fail (.unexpectedCodePair pair)

/-- Models `ObjectIter::next`, src/object_iter.rs:8-17: an error ends the iteration.  A panic
of the reader, and a reader that does not come to an end, are not an `Err`. -/
def nextObject : Rd (Option Object) := fun s =>
  match Rd.withFuel readObject s with
  | (.ok x, s') => (.ok x, s')
  | (.error .panic, s') => (.error .panic, s')
  | (.error .outOfFuel, s') => (.error .outOfFuel, s')
  | (.error _, s') => (.ok none, s')

/-- Models the loop of `read_objects`, src/drawing.rs:1079-1086. -/
def collectObjects : Nat → Rd (List Object)
  | 0 => Rd.fail .outOfFuel
  | fuel + 1 => do
    match ← nextObject with
    | none => return []
    | some o => do
      let os ← collectObjects fuel
      return o :: os

/-- The objects that `Drawing::read_objects` adds to the drawing, src/drawing.rs:1079-1090. -/
def readObjects : Rd (List Object) := Rd.withFuel collectObjects

end Dxf
