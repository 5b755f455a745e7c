import Verif.Model.LineWeight

/-! What the numbers that stand for line weights mean (C74). -/

namespace Dxf

/-- The line weights of the file format. -/
inductive Weight where
  | standard
  | byBlock
  | byLayer
  /-- in hundredths of a millimetre -/
  | fixed (n : I16)
  deriving DecidableEq

/-- The meaning of the codes 370 to 372 and of $CELWEIGHT, $DIMLWD and $DIMLWE in the DXF reference:
-1 is BYLAYER, -2 is BYBLOCK, -3 is DEFAULT. -/
def Weight.ofCode (n : I16) : Weight :=
  if n.toInt = -1 then .byLayer
  else if n.toInt = -2 then .byBlock
  else if n.toInt = -3 then .standard
  else .fixed n

/-- What the library says about a line weight. -/
def LineWeight.meaning (w : LineWeight) : Weight :=
  if w.isByLayer then .byLayer
  else if w.isByBlock then .byBlock
  else if w.raw.toInt = -3 then .standard
  else .fixed w.raw

end Dxf
