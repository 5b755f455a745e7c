import Verif.Model.Basic

/-! Colours, src/color.rs, and the layer colour helpers. -/

namespace Dxf

/-- Models `Color`, src/color.rs:6-8. -/
structure Color where
  raw : I16
  deriving DecidableEq, Repr

namespace Color

/-- Models `is_by_layer`, src/color.rs:12-14. -/
def isByLayer (c : Color) : Bool := c.raw = 256#16
/-- Models `is_by_entity`, src/color.rs:16-18. -/
def isByEntity (c : Color) : Bool := c.raw = 257#16
/-- Models `is_by_block`, src/color.rs:20-22. -/
def isByBlock (c : Color) : Bool := c.raw = 0#16
/-- Models `is_turned_off`, src/color.rs:24-26. -/
def isTurnedOff (c : Color) : Bool := c.raw.toInt < 0
/-- Models `is_index`, src/color.rs:44-46. -/
def isIndex (c : Color) : Bool := 1 ≤ c.raw.toInt ∧ c.raw.toInt ≤ 255
/-- Models `index`, src/color.rs:48-54 (`as u8` truncates). -/
def index (c : Color) : Option Byte := if c.isIndex then some (c.raw.setWidth 8) else none

/-- Models `set_by_layer` and `by_layer`, src/color.rs:28-30, 62-64. -/
def byLayer : Color := ⟨256#16⟩
/-- Models `set_by_block` and `by_block`, src/color.rs:32-34, 66-68. -/
def byBlock : Color := ⟨0#16⟩
/-- Models `set_by_entity` and `by_entity`, src/color.rs:36-38, 70-72. -/
def byEntity : Color := ⟨257#16⟩
/-- Models `turn_off`, src/color.rs:40-42. -/
def off : Color := ⟨BitVec.ofInt 16 (-1)⟩
/-- Models `from_index`, src/color.rs:74-78. -/
def fromIndex (i : Byte) : Color := ⟨i.setWidth 16⟩
/-- Models `from_raw_value`, src/color.rs:58-60. -/
def fromRaw (v : I16) : Color := ⟨v⟩

end Color

/-- Models `i16::abs`: `none` is the overflow panic of debug builds (release builds wrap and
return the argument). -/
def absI16 (v : I16) : Option I16 :=
  if v.toInt = -32768 then none else some (if v.toInt < 0 then -v else v)

/-- Models `writable_color_value`, src/color.rs:79-86; `on` is `layer.is_layer_on`. -/
def writableColor (c : Color) (on : Bool) : Option I16 :=
  (absI16 c.raw).map fun v => if on then v else -v

/-- Models `read_color_value`, src/helper_functions.rs:289-292: the layer's on/off state and
colour. -/
def readColor (v : I16) : Option (Bool × Color) :=
  (absI16 v).map fun a => (decide (0 ≤ v.toInt), .fromRaw a)

end Dxf
