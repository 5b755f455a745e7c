import Verif.Model.Tables
import Verif.Spec.Record
import Verif.Spec.ExtData

/-! Specification vocabulary for tables. -/

namespace Dxf

/-- All write statements of a table kind. -/
def TableKind.all (K : TableKind) (writeHandles : Bool) : List (GCmd K.decls) :=
  K.head writeHandles ++ K.cmds

/-- `b` is `a` as restored from a file of version `v`: every field with a representable value
has its value if the version writes it and the default value otherwise, except the fields listed
in `skip`; extension groups survive from R14 on (without the empty ones), extended data from
R2000 on. -/
def Restored (K : TableKind) (v : Version) (writeHandles : Bool) (skip : List Nat)
    (a b : TableItem K) : Prop :=
  (∀ i, i ∉ skip → Representable (K.all writeHandles) v a.fields i →
    b.fields i = if Written (K.all writeHandles) v a.fields i then a.fields i
      else Rec.dflt K.decls i) ∧
  b.ext = (if .r14 ≤ v then ExtGroup.kept a.ext else []) ∧
  b.xdata = (if .r2000 ≤ v then a.xdata else [])

/-- The eight table kinds other than layers. -/
def Tables.others : List TableKind :=
  [Tables.appId, Tables.blockRecord, Tables.dimStyle, Tables.lineType, Tables.style, Tables.ucs,
    Tables.view, Tables.viewPort]

end Dxf
