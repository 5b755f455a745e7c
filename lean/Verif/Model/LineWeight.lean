import Verif.Model.Basic

/-! Line weights, src/line_weight.rs.  The fields that hold them are 16-bit integers in the model
(`Ty`): what is written is `raw_value()`, what is read goes through `from_raw_value`. -/

namespace Dxf

/-- Models `LineWeight`, src/line_weight.rs:4-6. -/
structure LineWeight where
  raw : I16
  deriving DecidableEq, Repr

namespace LineWeight

/-- Models `from_raw_value`, src/line_weight.rs:9-11. -/
def fromRaw (v : I16) : LineWeight := ⟨v⟩
/-- Models `by_block`, src/line_weight.rs:13-15. -/
def byBlock : LineWeight := fromRaw (BitVec.ofInt 16 (-1))
/-- Models `by_layer`, src/line_weight.rs:17-19. -/
def byLayer : LineWeight := fromRaw (BitVec.ofInt 16 (-2))
/-- Models `is_by_block`, src/line_weight.rs:25-27. -/
def isByBlock (w : LineWeight) : Bool := w.raw = BitVec.ofInt 16 (-1)
/-- Models `is_by_layer`, src/line_weight.rs:29-31. -/
def isByLayer (w : LineWeight) : Bool := w.raw = BitVec.ofInt 16 (-2)

end LineWeight
end Dxf
