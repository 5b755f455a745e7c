import Verif.Model.Objects
import Verif.Spec.Record
import Verif.Spec.ExtData

/-! Specification vocabulary for objects. -/

namespace Dxf

namespace OName

/-- All write statements of a kind, in their four parts: the handle, what comes before the first
list of structs, what comes before the second one, and the rest. -/
def part1 (k : OName) : List (GCmd k.decls) := objectHead k.kind.spec
def part2 (k : OName) : List (GCmd k.decls) := objectCmds k.kind.spec ++ k.kind.cmds
def part3 (k : OName) : List (GCmd k.decls) := k.kind.cmds2
def part4 (k : OName) : List (GCmd k.decls) := k.kind.cmds3

def statements (k : OName) : List (GCmd k.decls) :=
  k.part1 ++ (k.part2 ++ (k.part3 ++ k.part4))

/-- Fields that do not survive, or not always.

* `AcadProxyObject`: the owner (1) is read as the first of the object ids (6, via the private 7).
* `DimensionAssoc`: the owner (1) is read as the dimension, which is then overwritten.
* `IdBuffer`, `SectionManager`: the owner (1) is read as one of the handles that are written with
  the same code (2, 4); `SectionManager` also: 3 is the length of a list.
* `Field`: the owner (1) is read as the private 22; up to R2007 the objects (15) are written with
  a code that is not read; from R2010 on the format string (5) is read as the private 25; 7, 14,
  16, 19 and 27 are private counts.
* `GeoData` (22, 27), `MLineStyle` (8): lengths of lists; `MLineStyle` (9, 10, 11): the private
  lists from which the elements should have been made.
* `LightList`: the version (2) is overwritten by the number of lights.
* `Material`: the matrices (17, 29, 37, 46, 54, 63, 80) are read into private lists (16, 28, 36,
  45, 53, 62, 79) from which they should have been made; `specular_gloss_factor` (24) is
  overwritten by `specular_color_factor`, which is written twice; before R2007, the name of the
  normal map (75) is read from the code of the name of another map.
* `NavisWorksModelDefinition` (3, 6), `RapidRTRenderEnvironment` (3, 6),
  `RapidRenderSettings`, `MentalRayRenderSettings`, `RenderEnvironment`, `RenderGlobal`: fields
  that share their code with another one.
* `TableStyle`: before R2010 the title suppression (8) is read as the version (2, an enum with a
  single value).
* `VbaProject`: the data (2) is written from the private 3 only. -/
def lost : OName → Version → List Nat
  | .acadProxyObject, _ => [1, 6, 7]
  | .navisWorksModelDefinition, _ => [3, 6]
  | .dimensionAssoc, _ => [1]
  | .field, v => if .r2010 ≤ v then [1, 5, 7, 14, 16, 19, 22, 25, 27]
      else [1, 7, 14, 15, 16, 19, 22, 27]
  | .geoData, _ => [22, 27]
  | .idBuffer, _ => [1, 2]
  | .lightList, _ => [2]
  | .material, v => if .r2007 ≤ v then
      [16, 17, 24, 28, 29, 36, 37, 45, 46, 53, 54, 62, 63, 79, 80]
      else [16, 17, 24, 28, 29, 36, 37, 45, 46, 53, 54, 62, 63, 75, 79]
  | .mLineStyle, _ => [8, 9, 10, 11]
  | .rapidRTRenderEnvironment, _ => [3, 6]
  | .rapidRenderSettings, _ => List.range' 2 17
  | .mentalRayRenderSettings, _ => List.range' 2 49
  | .renderEnvironment, _ => List.range' 3 10
  | .renderGlobal, _ => [2, 3, 4, 5, 7, 8, 9, 10]
  | .sectionManager, _ => [1, 3, 4]
  | .tableStyle, v => if .r2010 ≤ v then [] else [2, 8]
  | .vbaProject, _ => [2, 3]
  | _, _ => []

/-- `b` is `a` as restored from a file of version `v`: every field with a representable value
has its value if the version writes it and the default value otherwise, except the fields that
are lost; extension groups survive from R14 on (without the empty ones), extended data from
R2000 on. -/
def Restored (k : OName) (v : Version) (a b : Entry k.decls) : Prop :=
  (∀ i, i ∉ k.lost v → Representable k.statements v a.fields i →
    b.fields i = if Written k.statements v a.fields i then a.fields i else Rec.dflt k.decls i) ∧
  b.ext = (if .r14 ≤ v then ExtGroup.kept a.ext else []) ∧
  b.xdata = (if .r2000 ≤ v then a.xdata else [])

end OName

/-- The timestamp can be read back: it is not beyond the dates that `chrono` can represent. -/
def OName.Timely : (k : OName) → Rec k.decls → Prop
  | .layerIndex, r => ∃ d, Date.ofDouble (Date.asDouble (r 2 : Date)) = .ok d
  | .spatialIndex, r => ∃ d, Date.ofDouble (Date.asDouble (r 2 : Date)) = .ok d
  | _, _ => True

/-- The objects for which reading what was written gives the object, apart from lost fields.
Excluded are kinds and lists whose reader does not undo their writer:

* all `XRecordObject`s (see `C22_xrecord`);
* `DataTable`s with columns, `LightList`s with lights, `SunStudy`s with dates or hours and
  `TableStyle`s with cell styles;
* `SectionSettings` with two sections, or with a section and extended data;
* `LayerIndex` and `SpatialIndex` with a timestamp out of range.

That the entries of a dictionary are sorted is a property of the model's representation. -/
def Object.Regular : Object → Prop
  | ⟨.xRecordObject, _, _⟩ => False
  | ⟨.dictionary, _, x⟩ => x.dict.Pairwise fun a b => Str.lt a.1 b.1 = true
  | ⟨.dictionaryWithDefault, _, x⟩ => x.dict.Pairwise fun a b => Str.lt a.1 b.1 = true
  | ⟨.dataTable, _, x⟩ => x.table.columnCount = 0 ∧ x.table.rowCount < 2 ^ 31
  | ⟨.lightList, e, _⟩ => (e.fields 3 : List Handle) = []
  | ⟨.sectionSettings, e, x⟩ => x.sections = [] ∨ ((∃ s, x.sections = [s]) ∧ e.xdata = [])
  | ⟨.sunStudy, _, x⟩ => x.dates = [] ∧ x.hours = []
  | ⟨.tableStyle, _, x⟩ => x.cells = []
  | ⟨k, e, _⟩ => k.Timely e.fields

/-- What is left of a matrix of a `SpatialFilter`: it is transposed, and its last row is lost. -/
def Matrix.filtered (m : Matrix) : Matrix :=
  { m11 := m.m11, m12 := m.m21, m13 := m.m31, m14 := .zero
    m21 := m.m12, m22 := m.m22, m23 := m.m32, m24 := .zero
    m31 := m.m13, m32 := m.m23, m33 := m.m33, m34 := .zero
    m41 := m.m14, m42 := m.m24, m43 := m.m34, m44 := .zero }

/-- What is left of the lists and maps of a regular object: the mesh of a `GeoData` is flat, the
corners of its faces are truncated to integers, and the matrices of a `SpatialFilter` are
damaged; the elements of an `MLineStyle` are lost. -/
def OName.listsBack (k : OName) (x : OExtra) : OExtra :=
  match k with
  | .dictionary => { dict := x.dict }
  | .dictionaryWithDefault => { dict := x.dict }
  | .dataTable => { table := {
      rowCount := x.table.rowCount
      name := x.table.name
      values := List.replicate x.table.rowCount [] } }
  | .geoData => {
      mesh := x.mesh.map fun (s, d) => ({ s with z := .zero }, { d with z := .zero })
      faces := x.faces.map fun f =>
        ⟨F64.ofInt f.x.asI32.toInt, F64.ofInt f.y.asI32.toInt, F64.ofInt f.z.asI32.toInt⟩ }
  | .sectionSettings => { sections := x.sections }
  | .spatialFilter => {
      points := x.points
      inverse := x.inverse.filtered
      transform := x.transform.filtered }
  | _ => {}

/-- `o'` is `o` as restored from a file of version `v`. -/
def Object.Restored (v : Version) (o o' : Object) : Prop :=
  ∃ b, o.kind.Restored v o.entry b ∧ o' = ⟨o.kind, b, o.kind.listsBack o.extra⟩

end Dxf
