import Verif.Model.Dxb
import Verif.Spec.Reload

/-! What a DXB file holds of a drawing (C33). -/

namespace Dxf

/-- The point of the plane that a file holds: x and y in single precision. -/
def Point.planar (p : Point) : Point := ⟨F32.single p.x, F32.single p.y, .zero⟩

/-- The point that a file holds: all coordinates in single precision. -/
def Point.single (p : Point) : Point := ⟨F32.single p.x, F32.single p.y, F32.single p.z⟩

/-- An entity of some kind with the layer and colour of `e`; everything else has the default
value. -/
def Entity.plain (e : Entity) (k : EName) (r : Rec k.decls) : Entity :=
  ⟨⟨k, 0, ⟨(r.set 7 (Dxb.color e : I16)).set 3 (e.layer : Str), [], []⟩⟩, Extra.dflt⟩

/-- What a DXB file holds of an entity; `none` for the kinds that the format does not have.
Lines and faces have points in space, all others points in the plane; of a polyline it holds the
vertices and whether it is closed. -/
def Entity.inDxb (e : Entity) : Option Entity :=
  match e with
  | ⟨⟨.arc, _, x⟩, _⟩ => some (e.plain .arc (Dxb.newArc (Point.planar (x.fields 19))
      (F32.single (x.fields 20)) (F32.single (x.fields 22)) (F32.single (x.fields 23))))
  | ⟨⟨.circle, _, x⟩, _⟩ => some (e.plain .circle (Dxb.newCircle (Point.planar (x.fields 19))
      (F32.single (x.fields 20))))
  | ⟨⟨.face3D, _, x⟩, _⟩ => some (e.plain .face3D (Dxb.newFace (Point.single (x.fields 18))
      (Point.single (x.fields 19)) (Point.single (x.fields 20)) (Point.single (x.fields 21))))
  | ⟨⟨.line, _, x⟩, _⟩ => some (e.plain .line (Dxb.newLine (Point.single (x.fields 19))
      (Point.single (x.fields 20))))
  | ⟨⟨.modelPoint, _, x⟩, _⟩ =>
    some (e.plain .modelPoint (Dxb.newPoint (Point.planar (x.fields 18))))
  | ⟨⟨.polyline, _, x⟩, c⟩ => some { e.plain .polyline
      (Dxb.newPolyline (getFlag (x.fields 21 : I32) 1#32)) with
      extra := { Extra.dflt with
        verts := c.verts.map fun v => ⟨Dxb.newVertex (Point.planar (v.fields 18)), 0#64⟩ } }
  | ⟨⟨.seqend, _, _⟩, _⟩ => some (e.plain .seqend (Rec.dflt _))
  | ⟨⟨.solid, _, x⟩, _⟩ => some (e.plain .solid (Dxb.newSolid (Point.planar (x.fields 18))
      (Point.planar (x.fields 19)) (Point.planar (x.fields 20)) (Point.planar (x.fields 21))))
  | ⟨⟨.trace, _, x⟩, _⟩ => some (e.plain .trace (Dxb.newTrace (Point.planar (x.fields 18))
      (Point.planar (x.fields 19)) (Point.planar (x.fields 20)) (Point.planar (x.fields 21))))
  | ⟨⟨.vertex, _, x⟩, _⟩ => some (e.plain .vertex (Dxb.newVertex (Point.planar (x.fields 18))))
  | _ => none

/-- `y` is `x` with handles: its own and those of its vertices. -/
def Entity.WithHandles (x y : Entity) : Prop :=
  ∃ h, y.toFlat = (x.setHandle h).toFlat ∧ y.extra.unhandled = x.extra.unhandled

/-- The names that can be written as bytes: no zero, and no character beyond Latin-1. -/
def Str.Latin (s : Str) : Prop := ∀ c ∈ s, 0 < c.toNat ∧ c.toNat < 256

end Dxf
