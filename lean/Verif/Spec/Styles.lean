import Verif.Model.Basic

/-! How text styles and line types are described in a DXF file, after the TABLES section of the DXF
reference (C81). -/

namespace Dxf

/-- What the DXF reference says about a text style (STYLE in the TABLES section). -/
structure StyleLook where
  name : Str
  height : F64
  width : F64
  oblique : F64
  lastHeight : F64
  font : Str
  bigFont : Str

/-- The codes and what they mean. -/
def StyleLook.codes (l : StyleLook) : List CodePair :=
  [.newStr 2 l.name, .newF64 40 l.height, .newF64 41 l.width, .newF64 50 l.oblique,
   .newF64 42 l.lastHeight, .newStr 3 l.font, .newStr 4 l.bigFont]

/-- The flag of text styles, code 70, that says that the text is vertical. -/
def verticalFlag : I16 := 4#16

/-- What the DXF reference says about a simple line type (LTYPE): the lengths of the dashes (below 0 for
gaps, 0 for dots) stand in their order, each with code 49. -/
structure LineTypeLook where
  name : Str
  description : Str
  length : F64
  dashes : List F64

/-- The codes that are there once. -/
def LineTypeLook.codes (l : LineTypeLook) : List CodePair :=
  [.newStr 2 l.name, .newStr 3 l.description, .newF64 40 l.length]

end Dxf
