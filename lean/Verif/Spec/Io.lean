import Verif.Model.Io

/-! What readers deliver and which writers take everything. -/

namespace Dxf

/-- All bytes that a reader delivers, whatever errors lie between them. -/
def Source.bytes : Source → List Byte
  | [] => []
  | .data b bs :: s => b :: bs ++ Source.bytes s
  | .interrupted :: s => Source.bytes s
  | .failed :: s => Source.bytes s

/-- Bytes that are ready before the answers of another reader. -/
def Source.feed : List Byte → Source → Source
  | [], s => s
  | b :: bs, s => .data b bs :: s

/-- The first line of a DXB file. -/
def IsDxb (enc : Enc) (file : List Byte) : Prop :=
  (readLine true enc file).1 = .ok str!"AutoCAD DXB 1.0"

/-- A writer that sooner or later takes everything: it can take less than was offered, and calls can
be interrupted. -/
def Willing (replies : List Reply) : Prop := ∀ r ∈ replies, r ≠ .nothing ∧ r ≠ .failed

/-- What saving to a writer has to do, where `save` is the file or the error that there is none:
either everything was taken, or an error is reported and a proper part of the file was taken. -/
def Delivers (save : Except DxfErr (List Byte)) (w : Sink) : Except DxfErr Unit × Sink → Prop
  | (.ok _, w') => ∃ file, save = .ok file ∧ w'.taken = w.taken ++ file
  | (.error e, w') => (save = .error e ∧ w' = w) ∨
    (e = .ioError ∧ ∃ a b, save = .ok (a ++ b) ∧ b ≠ [] ∧ w'.taken = w.taken ++ a)

/-- What saving to a disk does at least, where `old` was the file before: the new file is the
beginning of what was to be saved, and when success is reported at most 8192 bytes are missing. -/
def Leaves (file : List Byte) (disk : Disk) (old : Option (List Byte)) :
    Except DxfErr Unit × Option (List Byte) → Prop
  | (.ok _, new) => ∃ c, new = some c ∧ c <+: file ∧ file.length ≤ c.length + 8192
  | (.error e, new) => e = .ioError ∧
    ((disk.creatable = false ∧ new = old) ∨ ∃ c, new = some c ∧ c <+: file)

/-- The pieces make up the file. -/
def Pieces (pieces : Except DxfErr (List (List Byte))) (save : Except DxfErr (List Byte)) : Prop :=
  pieces.map List.flatten = save

end Dxf
