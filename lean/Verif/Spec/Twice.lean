import Verif.Spec.Order

/-! Vocabulary for values that are given twice. -/

namespace Dxf

/-- The codes of an entity that add to a list instead of giving one value: the preview image and,
for some kinds, points, vertices, lines of text and handles. -/
def EName.lists (k : EName) : List Int :=
  310 :: match k with
  | .solid3D | .body | .region => [1, 3]
  | .proxyEntity => [330, 340, 350, 360]
  | .attribute | .attributeDefinition => [340]
  | .image => [14, 24]
  | .leader => [10, 20, 30]
  | .lwPolyline => [10]
  | .mLine => [11, 12, 13, 21, 22, 23, 31, 32, 33, 41, 42]
  | .mText => [3]
  | .«section» => [11, 12, 21, 22, 31, 32]
  | .spline => [10, 11, 20, 21, 30, 31, 40, 41]
  | .dgnUnderlay | .dwfUnderlay | .pdfUnderlay => [11, 21]
  | .wipeout => [12, 14]
  | _ => []

/-- The same for an object. -/
def OName.lists : OName → List Int
  | .acadProxyObject => [310, 330, 340, 350, 360]
  | .field => [6, 331, 360]
  | .geoData => [13, 14, 23, 24, 97, 98, 99]
  | .group => [340]
  | .idBuffer => [330]
  | .layerFilter => [8]
  | .layerIndex => [8, 90, 360]
  | .material => [43, 47, 49, 142, 144, 147]
  | .mLineStyle => [6, 49, 62]
  | .sectionManager => [330]
  | .vbaProject => [310]
  | _ => []

/-- The same for an entry of a table. -/
def TName.lists : TName → List Int
  | .blockRecord => [310]
  | .lineType => [9, 44, 45, 46, 49, 50, 74, 75, 340]
  | _ => []

end Dxf
