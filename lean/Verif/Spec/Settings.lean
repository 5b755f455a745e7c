import Verif.Spec.Shapes

/-! How settings are described in a DXF file, after the HEADER section of the DXF reference (C82). -/

namespace Dxf

/-- Some of the settings of a drawing. -/
structure Settings where
  base : Point
  extMin : Point
  extMax : Point
  lineTypeScale : F64
  textHeight : F64
  textStyle : Str
  layer : Str
  lineType : Str
  ortho : Bool
  fill : Bool

/-- The variables that describe them, after the HEADER section of the DXF reference: the base point and
the extents of the drawing, the scale of line types, the default height of texts, the current text style,
layer and line type, whether lines are drawn orthogonally, and whether areas are filled. -/
def Settings.vars (s : Settings) : List (Str × List CodePair) :=
  [(str!"$INSBASE", s.base.coded 10), (str!"$EXTMIN", s.extMin.coded 10), (str!"$EXTMAX", s.extMax.coded 10),
   (str!"$LTSCALE", [.newF64 40 s.lineTypeScale]), (str!"$TEXTSIZE", [.newF64 40 s.textHeight]),
   (str!"$TEXTSTYLE", [.newStr 7 s.textStyle]), (str!"$CLAYER", [.newStr 8 s.layer]),
   (str!"$CELTYPE", [.newStr 6 s.lineType]),
   (str!"$ORTHOMODE", [.newI16 70 (if s.ortho then 1 else 0)]),
   (str!"$FILLMODE", [.newI16 70 (if s.fill then 1 else 0)])]

/-- The pairs of variables: each begins with its name (code 9). -/
def varPairs (vs : List (Str × List CodePair)) : List CodePair :=
  vs.flatMap fun v => .newStr 9 v.1 :: v.2

end Dxf
