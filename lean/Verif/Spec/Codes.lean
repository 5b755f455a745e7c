import Verif.Model.ExpectedType

/-! The group-code table as data: `(first code, last code, wire type)`. -/

namespace Dxf

def codeRanges : List (Int × Int × ExpectedType) := [
  (0, 9, .str), (10, 59, .double), (60, 79, .short), (90, 99, .integer), (100, 102, .str),
  (105, 105, .str), (110, 149, .double), (160, 169, .long), (170, 179, .short),
  (210, 239, .double), (270, 289, .short), (290, 299, .boolean), (300, 309, .str),
  (310, 319, .binary), (320, 369, .str), (370, 389, .short), (390, 399, .str),
  (400, 409, .short), (410, 419, .str), (420, 429, .integer), (430, 439, .str),
  (440, 459, .integer), (460, 469, .double), (470, 481, .str), (999, 999, .str),
  (1000, 1009, .str), (1010, 1059, .double), (1060, 1070, .short), (1071, 1071, .integer)]

end Dxf
