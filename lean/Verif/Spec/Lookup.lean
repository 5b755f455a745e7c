import Verif.Spec.Reload

/-! What is expected of handles when a drawing is saved and loaded (C53). -/

namespace Dxf

/-- Files of version `v` contain the item, and with it its handle if handles are written: block
records and the handles of blocks from R13 on, entities and objects if the version has their kind,
and objects at all from R13 on. -/
def DrawingItem.Filed (v : Version) : DrawingItem → Prop
  | .table t _ => t = .blockRecord → .r13 ≤ v
  | .block _ => .r13 ≤ v
  | .entity e => e.kind.supported v = true
  | .object o => .r13 ≤ v ∧ o.kind.supported v = true

/-- The second item is the first one as restored from a file of version `v` with handles.  The
entities of a block have new handles. -/
def DrawingItem.Restored (v : Version) : DrawingItem → DrawingItem → Prop
  | .table t a, y => ∃ b, y = .table t b ∧ t.Restored v true a b
  | .block a, y => ∃ b es, y = .block { b with entities := es } ∧ a.Restored v true b ∧
    List.Forall₂ (fun e e' => ∃ h, e' = e.setHandle h) b.entities es
  | .entity a, y => ∃ b, y = .entity b ∧ a.Restored v true b
  | .object a, y => ∃ b, y = .object b ∧ a.Restored v b

/-- The handle of the owner of an item: what `owner` and `get_owner` look up. -/
def DrawingItem.ownerHandle : DrawingItem → Handle
  | .table _ x => ofTable _ x
  | .block b => b.entry.fields 1
  | .entity e => e.entry.fields 1
  | .object o => o.entry.fields 1
where
  ofTable : (t : TName) → t.Item → Handle
    | .appId, x => x.fields 2
    | .blockRecord, x => x.fields 2
    | .dimStyle, x => x.fields 2
    | .layer, x => x.fields 2
    | .lineType, x => x.fields 2
    | .style, x => x.fields 2
    | .ucs, x => x.fields 2
    | .view, x => x.fields 2
    | .viewPort, x => x.fields 2

/-- Files contain the owner of the item, and it is read back: not so for table entries (C20) and for
some kinds of entities and objects (C21, C22). -/
def DrawingItem.KeepsOwner (v : Version) : DrawingItem → Prop
  | .table _ _ => False
  | .block _ => True
  | .entity e => 1 ∉ e.kind.lost v
  | .object o => 1 ∉ o.kind.lost v

end Dxf
