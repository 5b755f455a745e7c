import Verif.Model.Tables
import Verif.Spec.Styles

/-! The public fields of text styles and line types. -/

namespace Dxf

/-- The public fields of `Style`, spec/TableSpec.xml:122-130, but for `text_generation_flags`. -/
def StyleLook.of (x : TableItem Tables.style) : StyleLook :=
  ⟨x.fields 0, x.fields 3, x.fields 4, x.fields 5, x.fields 7, x.fields 8, x.fields 9⟩

/-- The public fields `name`, `description`, `total_pattern_length` and `dash_dot_space_lengths` of
`LineType`, spec/TableSpec.xml:92-97. -/
def LineTypeLook.of (x : TableItem Tables.lineType) : LineTypeLook :=
  ⟨x.fields 0, x.fields 3, x.fields 6, x.fields 7⟩

end Dxf
