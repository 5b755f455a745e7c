import Verif.Model.TextCodec

/-! The put-back iterator over pairs, src/code_pair_put_back.rs. -/

namespace Dxf

/-- A result that is a 999 comment pair. -/
def isComment : Item → Bool
  | some (.ok p) => p.code = 999
  | _ => false

/-- The flat view of a put-back iterator used by the readers of the model: the results
still to come.  `[]` stands for `None` forever.  Put-back items are at the front; this is
exact as long as no comment pair is put back (`C10_flat_next`). -/
abbrev Stream := List Item

/-- Models the comment-skipping loop of `next`, src/code_pair_put_back.rs:28-34. -/
def Stream.next : Stream → Item × Stream
  | [] => (none, [])
  | it :: r => if isComment it then Stream.next r else (it, r)

/-- Models `CodePairPutBack`, src/code_pair_put_back.rs:5-8; the head of `top` is the item
pushed last, `items` are the results of the wrapped iterator. -/
structure PutBack where
  top : List (Except DxfErr CodePair)
  items : List Item
  deriving DecidableEq, Repr

namespace PutBack

/-- Models `from_code_pair_iter`, src/code_pair_put_back.rs:11-13. -/
def fromIter (items : List Item) : PutBack := ⟨[], items⟩

/-- Models `put_back`, src/code_pair_put_back.rs:14-16. -/
def putBack (pb : PutBack) (x : Except DxfErr CodePair) : PutBack := { pb with top := x :: pb.top }

/-- Models `next`, src/code_pair_put_back.rs:25-39. -/
def next (pb : PutBack) : Item × PutBack :=
  match pb.top with
  | x :: xs => (some x, { pb with top := xs })
  | [] =>
    let r := Stream.next pb.items
    (r.1, { pb with items := r.2 })

end PutBack

end Dxf
