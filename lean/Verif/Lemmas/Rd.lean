import Verif.Model.Rd

/-! Evaluation lemmas for readers. -/

namespace Dxf

/-- The stream that yields exactly these pairs and then ends. -/
def toStream (ps : List CodePair) : Stream := ps.map fun p => some (.ok p)

@[simp] theorem toStream_nil : toStream [] = [] := rfl
@[simp] theorem toStream_cons (p : CodePair) (ps : List CodePair) :
    toStream (p :: ps) = some (.ok p) :: toStream ps := rfl
@[simp] theorem toStream_append (a b : List CodePair) :
    toStream (a ++ b) = toStream a ++ toStream b := by simp [toStream]
@[simp] theorem toStream_length (a : List CodePair) : (toStream a).length = a.length := by
  simp [toStream]

namespace Rd

@[simp] theorem run_pure {α : Type} (a : α) (s : Stream) : (pure a : Rd α) s = (.ok a, s) := rfl

theorem run_bind {α β : Type} (m : Rd α) (f : α → Rd β) (s : Stream) :
    (m >>= f) s = (match m s with
      | (.ok a, s') => f a s'
      | (.error e, s') => (.error e, s')) := rfl

@[simp] theorem run_fail {α : Type} (e : DxfErr) (s : Stream) :
    (Rd.fail e : Rd α) s = (.error e, s) := rfl
@[simp] theorem run_lift {α : Type} (x : Except DxfErr α) (s : Stream) : Rd.lift x s = (x, s) := rfl
@[simp] theorem run_putBack (p : CodePair) (s : Stream) :
    Rd.putBack p s = (.ok (), some (.ok p) :: s) := rfl

theorem next_cons {p : CodePair} (h : p.code ≠ 999) (s : Stream) :
    Rd.next (some (.ok p) :: s) = (.ok p, s) := by
  simp [Rd.next, Stream.next, isComment, h]

theorem next?_cons {p : CodePair} (h : p.code ≠ 999) (s : Stream) :
    Rd.next? (some (.ok p) :: s) = (.ok (some p), s) := by
  simp [Rd.next?, Stream.next, isComment, h]

@[simp] theorem next?_nil : Rd.next? [] = (.ok none, []) := rfl
@[simp] theorem next_nil : Rd.next [] = (.error .unexpectedEndOfInput, []) := rfl

theorem run_withFuel {α : Type} (f : Nat → Rd α) (s : Stream) :
    Rd.withFuel f s = f (s.length + 1) s := rfl

theorem bind_ok {α β : Type} {m : Rd α} {f : α → Rd β} {s s' : Stream} {a : α}
    (h : m s = (.ok a, s')) : (m >>= f) s = f a s' := by rw [run_bind, h]

theorem bind_err {α β : Type} {m : Rd α} {f : α → Rd β} {s s' : Stream} {e : DxfErr}
    (h : m s = (.error e, s')) : (m >>= f) s = (.error e, s') := by rw [run_bind, h]

end Rd

theorem Stream.next_length (s : Stream) : s.next.2.length ≤ s.length - 1 := by
  induction s with
  | nil => simp [Stream.next]
  | cons it r ih =>
    rw [Stream.next]
    split
    · simp only [List.length_cons]; omega
    · simp

end Dxf
