import Verif.Model.Basic

namespace Dxf

/-- Models `ExpectedType`, src/expected_type.rs:3-11. -/
inductive ExpectedType where
  | boolean | integer | long | short | double | str | binary
  deriving DecidableEq, Repr

/-- Models `ExpectedType::new`, src/expected_type.rs:15-57; one line per match arm. -/
def ExpectedType.new (c : Int) : Option ExpectedType :=
  if 0 ≤ c ∧ c ≤ 9 then some .str
  else if 10 ≤ c ∧ c ≤ 39 then some .double
  else if 40 ≤ c ∧ c ≤ 59 then some .double
  else if 60 ≤ c ∧ c ≤ 79 then some .short
  else if 90 ≤ c ∧ c ≤ 99 then some .integer
  else if 100 ≤ c ∧ c ≤ 102 then some .str
  else if c = 105 then some .str
  else if 110 ≤ c ∧ c ≤ 119 then some .double
  else if 120 ≤ c ∧ c ≤ 129 then some .double
  else if 130 ≤ c ∧ c ≤ 139 then some .double
  else if 140 ≤ c ∧ c ≤ 149 then some .double
  else if 160 ≤ c ∧ c ≤ 169 then some .long
  else if 170 ≤ c ∧ c ≤ 179 then some .short
  else if 210 ≤ c ∧ c ≤ 239 then some .double
  else if 270 ≤ c ∧ c ≤ 279 then some .short
  else if 280 ≤ c ∧ c ≤ 289 then some .short
  else if 290 ≤ c ∧ c ≤ 299 then some .boolean
  else if 300 ≤ c ∧ c ≤ 309 then some .str
  else if 310 ≤ c ∧ c ≤ 319 then some .binary
  else if 320 ≤ c ∧ c ≤ 329 then some .str
  else if 330 ≤ c ∧ c ≤ 369 then some .str
  else if 370 ≤ c ∧ c ≤ 379 then some .short
  else if 380 ≤ c ∧ c ≤ 389 then some .short
  else if 390 ≤ c ∧ c ≤ 399 then some .str
  else if 400 ≤ c ∧ c ≤ 409 then some .short
  else if 410 ≤ c ∧ c ≤ 419 then some .str
  else if 420 ≤ c ∧ c ≤ 429 then some .integer
  else if 430 ≤ c ∧ c ≤ 439 then some .str
  else if 440 ≤ c ∧ c ≤ 449 then some .integer
  else if 450 ≤ c ∧ c ≤ 459 then some .integer
  else if 460 ≤ c ∧ c ≤ 469 then some .double
  else if 470 ≤ c ∧ c ≤ 479 then some .str
  else if 480 ≤ c ∧ c ≤ 481 then some .str
  else if c = 999 then some .str
  else if 1000 ≤ c ∧ c ≤ 1009 then some .str
  else if 1010 ≤ c ∧ c ≤ 1059 then some .double
  else if 1060 ≤ c ∧ c ≤ 1070 then some .short
  else if c = 1071 then some .integer
  else none

/-- The wire type of a value (the variant of `CodePairValue` that the readers build for
each `ExpectedType`, src/code_pair_iter.rs:117-149 and 211-266). -/
def CodePairValue.type : CodePairValue → ExpectedType
  | .boolean _ => .boolean
  | .integer _ => .integer
  | .long _ => .long
  | .short _ => .short
  | .double _ => .double
  | .str _ => .str
  | .binary _ => .binary

end Dxf
