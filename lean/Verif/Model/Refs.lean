import Verif.Model.Drawing

/-!
References from entities and objects to other items: the methods that
build/xml_helpers.rs:73-261 (`methods_for_pointer_access`) generates for each `<Pointer>` of
spec/EntitiesSpec.xml and spec/ObjectsSpec.xml, called in build/entity_generator.rs:154 and 390 and
build/object_generator.rs:159 and 380.  (Table entries have such a method for the owner only, C46.)
-/

namespace Dxf

/-- The attributes `Type` and `SubType` of a `<Pointer>`: any item, a table entry, an entity or an
object, the latter two possibly of one kind.  Others do not occur. -/
inductive RefType where
  | any
  | table (t : TName)
  | entity (k : Option EName)
  | object (k : Option OName)
  deriving DecidableEq

/-- The patterns `DrawingItem::{typ}(val)` and `{typ}Type::{sub_type}(_)` of the generated
methods. -/
def RefType.admits : RefType → DrawingItem → Bool
  | .any, _ => true
  | .table t, .table t' _ => decide (t' = t)
  | .entity none, .entity _ => true
  | .entity (some k), .entity e => decide (e.kind = k)
  | .object none, .object _ => true
  | .object (some k), .object o => decide (o.kind = k)
  | _, _ => false

/-- A `<Pointer>`: the number of its field `__{name}_handle` and its type. -/
structure Pointer where
  field : Nat
  typ : RefType

/-- The handles in a field of a pointer: one, or with `AllowMultiples` any number. -/
def Ty.refs : (t : Ty) → t.den → List Handle
  | .handle, h => [h]
  | .list .handle, hs => hs
  | _, _ => []

/-- Storing a handle in a field of a pointer: `self.{field} = handle`, and with `AllowMultiples`
`self.{field}.push(handle)`. -/
def Ty.store : (t : Ty) → t.den → Handle → t.den
  | .handle, _, h => h
  | .list .handle, hs, h => (show List Handle from hs) ++ [h]
  | _, v, _ => v

variable {Img : Type} {ds : List Decl}

/-- Models the getter, build/xml_helpers.rs:86-171: `item_by_handle` for each handle; what is
missing or of another type is left out.  A pointer without `AllowMultiples` gives an `Option`, here
a list of at most one item. -/
def Pointer.get (p : Pointer) (d : Drawing Img) (r : Rec ds) : List DrawingItem :=
  ((tyAt ds p.field).refs (r p.field)).filterMap fun h => (d.itemByHandle h).filter p.typ.admits

/-- Models the setters `set_{name}` and `add_{name}`, build/xml_helpers.rs:173-257.  An item of the
wrong kind gives `DxfError::WrongItemType`.  (An item of the wrong `Type` is refused by the compiler;
here it gives the same error.) -/
def Pointer.set (p : Pointer) (r : Rec ds) (x : DrawingItem) : Except DxfErr (Rec ds) :=
  if p.typ.admits x then .ok (r.set p.field ((tyAt ds p.field).store (r p.field) x.handle))
  else .error .wrongItemType

/-- The pointers of `EntityCommon`, spec/EntitiesSpec.xml:11-26: owner, material and plot style. -/
def EName.commonPointers : List Pointer :=
  [⟨1, .any⟩, ⟨6, .object (some .material)⟩, ⟨16, .any⟩]

/-- The pointers of an entity: those of all entities, then those of its kind,
spec/EntitiesSpec.xml:77-1210. -/
def EName.pointers (k : EName) : List Pointer := EName.commonPointers ++
  match k with
  | .solid3D => [⟨21, .any⟩]
  | .attributeDefinition => [⟨41, .any⟩]
  | .attribute => [⟨40, .any⟩]
  | .mLine => [⟨19, .table .style⟩]
  | .section => [⟨31, .any⟩]
  | .dgnUnderlay => [⟨18, .object none⟩]
  | .dwfUnderlay => [⟨18, .object none⟩]
  | .pdfUnderlay => [⟨18, .object none⟩]
  | _ => []

/-- The pointers of an object: the owner, spec/ObjectsSpec.xml:11, and those of its kind, 119-1086. -/
def OName.pointers (k : OName) : List Pointer := ⟨1, .any⟩ ::
  match k with
  | .dimensionAssoc => [⟨2, .entity none⟩, ⟨8, .any⟩, ⟨11, .any⟩, ⟨14, .any⟩, ⟨17, .any⟩]
  | .field => [⟨8, .object (some .field)⟩, ⟨15, .object none⟩]
  | .group => [⟨5, .entity none⟩]
  | .idBuffer => [⟨2, .entity none⟩]
  | .layerIndex => [⟨4, .any⟩]
  | .layout => [⟨15, .table .viewPort⟩, ⟨16, .any⟩, ⟨17, .any⟩]
  | .lightList => [⟨3, .entity (some .light)⟩]
  | .mLeaderStyle => [⟨10, .any⟩, ⟨17, .any⟩, ⟨20, .any⟩, ⟨30, .any⟩]
  | .plotSettings => [⟨32, .any⟩]
  | .rapidRTRenderEnvironment => [⟨7, .any⟩]
  | .sectionManager => [⟨4, .entity none⟩]
  | .sectionSettings => [⟨4, .object none⟩, ⟨5, .object none⟩]
  | .sortentsTable => [⟨2, .entity none⟩, ⟨3, .any⟩]
  | .sunStudy => [⟨14, .any⟩, ⟨15, .table .view⟩, ⟨16, .any⟩, ⟨24, .any⟩]
  | _ => []

end Dxf
