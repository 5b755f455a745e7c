import Verif.Model.Record

/-! Entries: a record together with extension data groups and extended data, and the loop that
reads the pairs of an entry up to the next pair with code 0. -/

namespace Dxf

/-- A struct with the fields `extension_data_groups` and `x_data` besides the fields of the
specification. -/
structure Entry (ds : List Decl) where
  fields : Rec ds
  ext : List ExtGroup
  xdata : List XData

/-- The `Default` value. -/
def Entry.dflt (ds : List Decl) : Entry ds := ⟨Rec.dflt ds, [], []⟩

/-- The loop around the match arms of a generated reader: pairs up to the next one with code 0,
which is put back (build/table_generator.rs:201-292 and the same loops of src/entity.rs,
src/object.rs).  `fuel` bounds the number of pairs.  At the end of the input the generated
loops fail; the hand-written ones that use `next_pair!` (src/helper_functions.rs:401-413) end,
which is `eof`. -/
def itemLoop {σ : Type} (eof : Bool) (step : CodePair → σ → Rd σ) : Nat → σ → Rd σ
  | 0, _ => Rd.fail .outOfFuel
  | fuel + 1, st => do
    match ← Rd.next? with
    | none => if eof then return st else Rd.fail .unexpectedEndOfInput
    | some pair =>
      if pair.code = 0 then do
        Rd.putBack pair
        return st
      else do
        let st' ← step pair st
        itemLoop eof step fuel st'

/-- The match arms on an item: extension groups, extended data, and the arms of the
specification.  In the generated table readers the arms for 2 and 5 come before and the one
for 330 after those two (build/table_generator.rs:214-231); the codes differ, so the order is
immaterial. -/
def Entry.apply {ds : List Decl} (arms : List (Arm ds)) (pair : CodePair) (it : Entry ds) :
    Rd (Entry ds) :=
  if pair.code = 102 then do
    let g ← ExtGroup.read (← Rd.lift pair.assertString) pair.offset
    return { it with ext := it.ext ++ [g] }
  else if pair.code = 1001 then do
    let x ← XData.read (← Rd.lift pair.assertString)
    return { it with xdata := it.xdata ++ [x] }
  else do
    let r ← Rd.lift (applyPair arms it.fields pair)
    return { it with fields := r }

end Dxf
