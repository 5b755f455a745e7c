import Verif.Model.File

/-! Drawings that can be saved. -/

namespace Dxf

/-- The cell exists (it may be empty). -/
def DataTable.HasCell (t : DataTable) (row col : Nat) : Prop :=
  ∃ cells, t.values[row]? = some cells ∧ col < cells.length

/-- The first row has all columns, and each column of which the first cell is not empty has a name
and a cell in each row. -/
def DataTable.Complete (t : DataTable) : Prop :=
  ∀ col < t.columnCount, t.HasCell 0 col ∧
    ∀ cells v, t.values[0]? = some cells → cells[col]? = some (some v) →
      col < t.columnNames.length ∧ ∀ row < t.rowCount, t.HasCell row col

/-- The data tables that are written are complete, and the image library makes a bitmap file of the
thumbnail. -/
def Drawing.Savable {Img : Type} (codec : ImageCodec Img) (d : Drawing Img) : Prop :=
  (.r13 ≤ d.version → ∀ o ∈ d.objects, o.kind = .dataTable → o.kind.supported d.version = true →
    o.extra.table.Complete) ∧
  (.r2000 ≤ d.version → ∀ img, d.thumbnail = some img →
    ∃ data, codec.toBmp img = .ok data ∧ 14 ≤ data.length)

end Dxf
