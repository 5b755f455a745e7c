import Verif.Model.Entities
import Verif.Spec.Shapes

/-! The entities that are made with a constructor, and the geometry of simple entities. -/

namespace Dxf

/-- Models `Entity::new`, src/entity.rs:396-402, for the kinds without other entities in them. -/
def Entity.new (k : EName) (specific : Rec k.decls) : Entity :=
  ⟨⟨k, 0, ⟨specific, [], []⟩⟩, Extra.dflt⟩

/-- Models `Line::new`, src/entity.rs:107-113. -/
def Line.new (p1 p2 : Point) : Rec EName.line.decls :=
  ((Rec.dflt EName.line.decls).set 19 p1).set 20 p2

/-- Models `Arc::new`, src/entity.rs:17-25. -/
def Arc.new (center : Point) (radius start «end» : F64) : Rec EName.arc.decls :=
  ((((Rec.dflt EName.arc.decls).set 19 center).set 20 radius).set 22 start).set 23 «end»

/-- Models `Circle::new`, src/entity.rs:32-38. -/
def Circle.new (center : Point) (radius : F64) : Rec EName.circle.decls :=
  ((Rec.dflt EName.circle.decls).set 19 center).set 20 radius

/-- Models `Face3D::new`, src/entity.rs:71-84. -/
def Face3D.new (p1 p2 p3 p4 : Point) : Rec EName.face3D.decls :=
  ((((Rec.dflt EName.face3D.decls).set 18 p1).set 19 p2).set 20 p3).set 21 p4

/-- Models `ModelPoint::new`, src/entity.rs:135-140. -/
def ModelPoint.new (p : Point) : Rec EName.modelPoint.decls :=
  (Rec.dflt EName.modelPoint.decls).set 18 p

/-- Models `Solid::new`, src/entity.rs:184-197. -/
def Solid.new (p1 p2 p3 p4 : Point) : Rec EName.solid.decls :=
  ((((Rec.dflt EName.solid.decls).set 18 p1).set 19 p2).set 20 p3).set 21 p4

/-- Models `Trace::new`, src/entity.rs:204-217. -/
def Trace.new (p1 p2 p3 p4 : Point) : Rec EName.trace.decls :=
  ((((Rec.dflt EName.trace.decls).set 18 p1).set 19 p2).set 20 p3).set 21 p4

/-- Models `Vertex::new`, src/entity.rs:224-229. -/
def Vertex.new (location : Point) : Rec EName.vertex.decls :=
  (Rec.dflt EName.vertex.decls).set 18 location

/-- The public fields that hold the geometry, spec/EntitiesSpec.xml: `Line`, `ModelPoint`, `Circle`,
`Arc`, `Face3D`, `Solid`, `Trace`, `Vertex`, `Ray`, `XLine` and `Ellipse`. -/
def Shape.of : Flat → Option Shape
  | ⟨.line, _, e⟩ => some (.line (e.fields 19) (e.fields 20))
  | ⟨.modelPoint, _, e⟩ => some (.point (e.fields 18))
  | ⟨.circle, _, e⟩ => some (.circle (e.fields 19) (e.fields 20))
  | ⟨.arc, _, e⟩ => some (.arc (e.fields 19) (e.fields 20) (e.fields 22) (e.fields 23))
  | ⟨.face3D, _, e⟩ => some (.face (e.fields 18) (e.fields 19) (e.fields 20) (e.fields 21))
  | ⟨.solid, _, e⟩ => some (.solid (e.fields 18) (e.fields 19) (e.fields 20) (e.fields 21))
  | ⟨.trace, _, e⟩ => some (.trace (e.fields 18) (e.fields 19) (e.fields 20) (e.fields 21))
  | ⟨.vertex, _, e⟩ => some (.vertex (e.fields 18))
  | ⟨.ray, _, e⟩ => some (.ray (e.fields 18) (e.fields 19))
  | ⟨.xLine, _, e⟩ => some (.xline (e.fields 18) (e.fields 19))
  | ⟨.ellipse, _, e⟩ => some (.ellipse (e.fields 18) (e.fields 19) (e.fields 21) (e.fields 22)
      (e.fields 23))
  | _ => none

end Dxf
