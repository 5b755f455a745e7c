import Verif.Model.PutBack
import Verif.Model.Hex

/-! A reader: the effect of a Rust function `fn(&mut CodePairPutBack) -> DxfResult<T>`.

The stream that remains is kept also when an error is returned, because callers such as
`EntityIter` (src/entity_iter.rs) drop the error and go on reading. -/

namespace Dxf

/-- A Rust function reading from `iter: &mut CodePairPutBack` and returning
`DxfResult<α>`. -/
def Rd (α : Type) : Type := Stream → Except DxfErr α × Stream

namespace Rd

/-- `?` and sequencing. -/
def bind {α β : Type} (m : Rd α) (f : α → Rd β) : Rd β := fun s =>
  match m s with
  | (.ok a, s') => f a s'
  | (.error e, s') => (.error e, s')

instance : Monad Rd where
  pure a := fun s => (.ok a, s)
  bind := Rd.bind

/-- `return Err(e)`. -/
def fail {α : Type} (e : DxfErr) : Rd α := fun s => (.error e, s)

/-- `expr?` for an expression that does not use the iterator. -/
def lift {α : Type} (x : Except DxfErr α) : Rd α := fun s => (x, s)

/-- `match iter.next() { Some(Ok(p)) => Some(p), Some(Err(e)) => return Err(e),
None => None }`. -/
def next? : Rd (Option CodePair) := fun s =>
  match s.next with
  | (some (.ok p), s') => (.ok (some p), s')
  | (some (.error e), s') => (.error e, s')
  | (none, s') => (.ok none, s')

/-- The same with `None => return Err(DxfError::UnexpectedEndOfInput)`. -/
def next : Rd CodePair := fun s =>
  match s.next with
  | (some (.ok p), s') => (.ok p, s')
  | (some (.error e), s') => (.error e, s')
  | (none, s') => (.error .unexpectedEndOfInput, s')

/-- `iter.put_back(Ok(pair))`. -/
def putBack (p : CodePair) : Rd Unit := fun s => (.ok (), some (.ok p) :: s)

/-- Supplies recursion fuel: one more than the number of items still to come. -/
def withFuel {α : Type} (f : Nat → Rd α) : Rd α := fun s => f (s.length + 1) s

end Rd

end Dxf
