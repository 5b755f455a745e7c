import Verif.Spec.Drawing
import Verif.Model.Drafts

/-! What is expected of attributes and vertices that are added to an entity before the entity is
added to a drawing (C71). -/

namespace Dxf

variable {Img : Type}

/-- A drawing, and the entities that are being made for it and are not yet part of it. -/
structure Desk (Img : Type) where
  drawing : Drawing Img
  drafts : List Entity

/-- What is done next. -/
inductive Work where
  /-- an entity is begun -/
  | draft (e : Entity)
  /-- `add_attribute` for a draft -/
  | attribute (i : Nat) (fields : Rec (commonDecls ++ Ent.attributeSpec)) (mtext : MTextRec)
  /-- `add_vertex` for a draft -/
  | vertex (i : Nat) (fields : Rec (commonDecls ++ Ent.vertexSpec))
  /-- a draft is added to the drawing -/
  | store (i : Nat)
  /-- a draft is given up -/
  | discard (i : Nat)
  /-- anything else that can be done with the drawing -/
  | op (o : Op)

/-- The draft is replaced. -/
def Desk.revise (k : Desk Img) (i : Nat) (r : Except DxfErr (Entity × Drawing Img)) :
    Except DxfErr (Desk Img) :=
  r.map fun p => ⟨p.2, k.drafts.set i p.1⟩

/-- What comes of it. -/
def Work.run : Work → Desk Img → Except DxfErr (Desk Img)
  | .draft e, k => .ok { k with drafts := k.drafts ++ [e] }
  | .attribute i fields mtext, k =>
    match k.drafts[i]? with
    | none => .ok k
    | some e => k.revise i (k.drawing.addAttribute e fields mtext)
  | .vertex i fields, k =>
    match k.drafts[i]? with
    | none => .ok k
    | some e => k.revise i (k.drawing.addVertex e fields)
  | .store i, k =>
    match k.drafts[i]? with
    | none => .ok k
    | some e => (k.drawing.addEntity e).map fun p => ⟨p.2, k.drafts.eraseIdx i⟩
  | .discard i, k => .ok { k with drafts := k.drafts.eraseIdx i }
  | .op o, k => (o.run k.drawing).map fun d => { k with drawing := d }

/-- An entity is begun without attributes and vertices; attributes are for inserts and vertices for
polylines; the drawing is not cleared while there are drafts; and nothing is added whose attributes
or vertices were made elsewhere (compare C13). -/
def Work.Allowed (k : Desk Img) : Work → Prop
  | .draft e => e.extra.atts = [] ∧ e.extra.verts = []
  | .attribute i _ _ => ∃ e, k.drafts[i]? = some e ∧ e.kind = .insert
  | .vertex i _ => ∃ e, k.drafts[i]? = some e ∧ e.kind = .polyline
  | .op .clear => k.drafts = []
  | .op o => o.Simple
  | _ => True

/-- What can come of a new drawing. -/
inductive Desk.Reached : Desk Img → Prop
  | new {h0 : Header} {order : List Str} {d : Drawing Img} (hf : h0.Fresh)
      (h : Drawing.new h0 order = .ok d) : Reached ⟨d, []⟩
  | step {k k' : Desk Img} {w : Work} (hk : Reached k) (hw : w.Allowed k) (h : w.run k = .ok k') :
      Reached k'

/-- The handles of the attributes or vertices of an entity. -/
def Entity.parts (e : Entity) : List Handle :=
  if e.kind = .insert then e.extra.atts.map Att.handle
  else if e.kind = .polyline then e.extra.verts.map Vert.handle
  else []

/-- All handles that have been given out and are still in use. -/
def Desk.handles (k : Desk Img) : List Handle :=
  k.drawing.deepHandles ++ k.drafts.flatMap Entity.parts

/-- A bound for the number of handles that are taken. -/
def Work.cost (k : Desk Img) : Work → Nat
  | .attribute _ _ _ | .vertex _ _ => 1
  | .store i => ((k.drafts[i]?.map fun e => Op.cost (.addEntity e))).elim 0 id
  | .op o => o.cost
  | _ => 0

end Dxf
