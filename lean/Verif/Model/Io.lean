import Verif.Model.Bytes

/-! Readers and writers that do not do everything at once and can fail: `std::io::Read` and
`std::io::Write` as used by `Drawing::load`, `Drawing::save` and `Drawing::save_file`.

The environment is a list of the answers it will give.  All results are for all such lists. -/

namespace Dxf

/-! ### Reading -/

/-- One answer of an implementor of `std::io::Read`: some bytes are ready (and are handed out one
part after the other if the buffer is too small), the call was interrupted
(`ErrorKind::Interrupted`), or there was another error.  When there are no more answers the input
has ended, and `read` returns `Ok(0)`. -/
inductive Answer where
  | data (b : Byte) (bs : List Byte)
  | interrupted
  | failed
  deriving DecidableEq, Repr

/-- An implementor of `std::io::Read`: the answers it is going to give. -/
abbrev Source := List Answer

/-- The two kinds of errors that the standard library treats differently. -/
inductive Fault where
  | interrupted
  | failed
  deriving DecidableEq, Repr

namespace Source

/-- `Read::read` with a buffer of `n + 1` bytes. -/
def read (n : Nat) : Source → Except Fault (List Byte) × Source
  | [] => (.ok [], [])
  | .data b bs :: s =>
    match bs.drop n with
    | [] => (.ok (b :: bs), s)
    | c :: cs => (.ok (b :: bs.take n), .data c cs :: s)
  | .interrupted :: s => (.error .interrupted, s)
  | .failed :: s => (.error .failed, s)

/-- Decreases with every answer that is not the end of the input. -/
def weight : Source → Nat
  | [] => 0
  | .data _ bs :: s => bs.length + 1 + weight s
  | .interrupted :: s => weight s + 1
  | .failed :: s => weight s + 1

theorem read_weight (n : Nat) (s : Source) :
    (s.read n).1 = .ok [] ∨ (s.read n).2.weight < s.weight := by
  unfold read
  split
  · exact .inl rfl
  · right
    rename_i b bs s
    split
    · simp only [weight]
      omega
    · rename_i c cs h
      have := congrArg List.length h
      rw [List.length_drop, List.length_cons] at this
      simp only [weight]
      omega
  · exact .inr (Nat.lt_succ_self _)
  · exact .inr (Nat.lt_succ_self _)

/-- Models `read_u8`, src/helper_functions.rs:336-346: interruptions are errors. -/
def readByte (s : Source) : Option (Except Fault Byte) × Source :=
  match s.read 0 with
  | (.ok [], s) => (none, s)
  | (.ok (b :: _), s) => (some (.ok b), s)
  | (.error e, s) => (some (.error e), s)

/-- `next` of the iterator returned by `Read::bytes` of the standard library: interrupted calls are
repeated. -/
def nextByte : Source → Option (Except Fault Byte) × Source
  | .interrupted :: s => nextByte s
  | s => readByte s

theorem nextByte_weight {s : Source} (h : (nextByte s).1 ≠ none) :
    (nextByte s).2.weight < s.weight := by
  induction s with
  | nil => exact absurd rfl h
  | cons a s ih =>
    cases a with
    | interrupted => exact Nat.lt_trans (ih h) (Nat.lt_succ_self _)
    | failed => exact Nat.lt_succ_self _
    | data b bs =>
      change (readByte (.data b bs :: s)).2.weight < _
      cases bs with
      | nil => simp [readByte, read, weight]
      | cons c cs => simp [readByte, read, weight]

/-- The loop in `read_line`, src/helper_functions.rs:302-322: the bytes of the line without the end
of the line and the mark of UTF-8.  As `Dxf.lineBytes`, for a reader. -/
def lineBytes (allowBom : Bool) (i : Nat) (skip : Bool) (s : Source) :
    Except DxfErr (List Byte) × Source :=
  match h : nextByte s with
  | (none, s') => (.ok [], s')
  | (some (.error _), s') => (.error .ioError, s')
  | (some (.ok b), s') =>
    if i = 0 ∧ b = 0xEF#8 ∧ allowBom then lineBytes allowBom (i + 1) true s'
    else if ((i = 1 ∧ b = 0xBB#8) ∨ (i = 2 ∧ b = 0xBF#8)) ∧ skip then
      lineBytes allowBom (i + 1) skip s'
    else if b = 0x0A#8 then (.ok [], s')
    else
      let r := lineBytes allowBom (i + 1) skip s'
      (r.1.map (b :: ·), r.2)
termination_by s.weight
decreasing_by all_goals
  have := nextByte_weight (s := s) (by rw [h]; simp)
  rw [h] at this
  exact this

/-- Models `read_line`, src/helper_functions.rs:294-334, for a reader. -/
def readLine (allowBom : Bool) (enc : Enc) (s : Source) : Except DxfErr Str × Source :=
  match s.lineBytes allowBom 0 false with
  | (.error e, s) => (.error e, s)
  | (.ok bytes, s) =>
    match decode enc bytes with
    | some l => (.ok (stripCr l), s)
    | none => (.error .malformedString, s)

/-- `Read::read_to_end` of the standard library, with a buffer of `size k + 1` bytes for the `k`-th
call: it ends when the input has ended; interrupted calls are repeated. -/
def readToEnd (size : Nat → Nat) (k : Nat) (s : Source) : Except DxfErr (List Byte) :=
  match h : s.read (size k) with
  | (.ok [], _) => .ok []
  | (.ok (b :: bs), s') => (readToEnd size (k + 1) s').map ((b :: bs) ++ ·)
  | (.error .interrupted, s') => readToEnd size (k + 1) s'
  | (.error .failed, _) => .error .ioError
termination_by s.weight
decreasing_by all_goals
  have := read_weight (size k) s
  rw [h] at this
  simpa using this

/-- What single reads (`read_u8`) give: bytes, and after each error the bytes up to the next one. -/
def parts : Source → List Byte × List (List Byte)
  | [] => ([], [])
  | .data b bs :: s => (b :: bs ++ (parts s).1, (parts s).2)
  | .interrupted :: s => ([], (parts s).1 :: (parts s).2)
  | .failed :: s => ([], (parts s).1 :: (parts s).2)

end Source

namespace Drawing

variable {Img : Type}

/-- Models `Drawing::load_with_encoding`, src/drawing.rs:113-128, for a reader.  `size` are the
sizes of the buffers that `read_to_end` uses in `new_code_pair_iter_from_reader`,
src/code_pair_iter.rs:297-298; the reader of DXB files uses `read_u8` only. -/
def loadFrom (codec : ImageCodec Img) (enc : Enc) (h0 : Header) (order : List Str)
    (size : Nat → Nat) (s : Source) : Except DxfErr (Drawing Img) :=
  match s.readLine true enc with
  | (.error e, _) => .error e
  | (.ok l, s) =>
    if l = str!"AutoCAD DXB 1.0" then loadDxb h0 order s.parts.1 s.parts.2
    else do
      let bytes ← s.readToEnd size 0
      let (main, alt) ← newPairIter enc l bytes
      (load codec h0 order (switched codec h0 order main alt)).1

end Drawing

/-! ### Writing -/

/-- One answer of an implementor of `std::io::Write`: it takes up to `k + 1` bytes, it takes nothing
and returns `Ok(0)`, the call was interrupted, or there was another error. -/
inductive Reply where
  | takes (k : Nat)
  | nothing
  | interrupted
  | failed
  deriving DecidableEq, Repr

/-- An implementor of `std::io::Write`: the answers it is going to give, and what it has taken so
far.  When there are no more answers it takes everything. -/
structure Sink where
  replies : List Reply
  taken : List Byte
  deriving DecidableEq, Repr

/-- `Write::write_all` of the standard library; also the loop in `BufWriter::flush_buf`.  Interrupted
calls are repeated, `Ok(0)` is an error.  Returns the bytes that were not taken, if there was an
error. -/
def Sink.writeAll' : List Reply → List Byte → List Byte → Option (List Byte) × Sink
  | replies, taken, [] => (none, ⟨replies, taken⟩)
  | [], taken, b :: bs => (none, ⟨[], taken ++ b :: bs⟩)
  | .takes k :: replies, taken, b :: bs =>
    writeAll' replies (taken ++ b :: bs.take k) (bs.drop k)
  | .nothing :: replies, taken, b :: bs => (some (b :: bs), ⟨replies, taken⟩)
  | .interrupted :: replies, taken, b :: bs => writeAll' replies taken (b :: bs)
  | .failed :: replies, taken, b :: bs => (some (b :: bs), ⟨replies, taken⟩)

/-- `Write::write_all`. -/
def Sink.writeAll (bs : List Byte) (w : Sink) : Option (List Byte) × Sink :=
  Sink.writeAll' w.replies w.taken bs

/-- Something written by several calls of `write_all`, up to the first error. -/
def Sink.writeEach : List (List Byte) → Sink → Except DxfErr Unit × Sink
  | [], w => (.ok (), w)
  | bs :: pieces, w =>
    match w.writeAll bs with
    | (none, w) => writeEach pieces w
    | (some _, w) => (.error .ioError, w)

/-- The calls of `write_fmt` in `write_ascii_code_pair`, src/code_pair_writer.rs:50-66.
Simplification: `write_fmt` calls `write_all` for parts of the text; what is written is the same for
all such parts (C57). -/
def asciiPieces (textAsAscii : Bool) (p : CodePair) : List (List Byte) :=
  [utf8Encode (padLeft 3 ' ' (fmtInt p.code) ++ str!"\r\n"),
    utf8Encode (valueLine textAsAscii p.value ++ str!"\r\n")]

/-- The calls in `write_binary_code_pair`, src/code_pair_writer.rs:67-107, one for the code and one
for the value.  Simplification as for `asciiPieces`. -/
def binPieces (wide : Bool) (p : CodePair) : List (List Byte) :=
  [binCodeBytes wide p.code, binValueBytes wide p.value]

namespace Drawing

variable {Img : Type}

/-- The calls of `write_all` when a drawing is saved: `save_internal`, src/drawing.rs:190-203. -/
def textPieces (codec : ImageCodec Img) (d : Drawing Img) : Except DxfErr (List (List Byte)) :=
  (d.codePairs codec).map fun ps => ps.flatMap (asciiPieces (decide (d.version ≤ .r2004)))

/-- The calls of `write_all` when a drawing is saved as binary file: `save_internal`,
src/drawing.rs:190-203, with `write_prelude`, src/code_pair_writer.rs:33-42. -/
def binaryPieces (codec : ImageCodec Img) (d : Drawing Img) : Except DxfErr (List (List Byte)) :=
  (d.codePairs codec).map fun ps =>
    [utf8Encode (str!"AutoCAD Binary DXF\r\n"), [byte 0x1A], [byte 0]] ++
    ps.flatMap (binPieces (decide (.r13 ≤ d.version)))

end Drawing

/-- Models `save_internal`, src/drawing.rs:190-203, and `save_dxb`, src/drawing.rs:218-224: nothing
is written when there are no pairs because of an error. -/
def saveTo (pieces : Except DxfErr (List (List Byte))) (w : Sink) : Except DxfErr Unit × Sink :=
  match pieces with
  | .error e => (.error e, w)
  | .ok pieces => w.writeEach pieces

/-! ### Files -/

/-- `std::io::BufWriter`, with the bytes that have not been given to the writer inside. -/
structure BufWriter where
  inner : Sink
  buf : List Byte
  deriving DecidableEq, Repr

namespace BufWriter

/-- The default capacity of a `BufWriter`. -/
def capacity : Nat := 8192

/-- `BufWriter::flush_buf`: on an error the bytes that were not taken stay in the buffer. -/
def flush (w : BufWriter) : Bool × BufWriter :=
  match w.inner.writeAll w.buf with
  | (none, inner) => (true, ⟨inner, []⟩)
  | (some rest, inner) => (false, ⟨inner, rest⟩)

/-- `BufWriter::write_all` after the test whether the buffer has to be flushed first: large pieces
are not buffered. -/
def put (bs : List Byte) (w : BufWriter) : Bool × BufWriter :=
  if bs.length < capacity then (true, { w with buf := w.buf ++ bs })
  else
    match w.inner.writeAll bs with
    | (none, inner) => (true, { w with inner := inner })
    | (some _, inner) => (false, { w with inner := inner })

/-- `BufWriter::write_all`. -/
def writeAll (bs : List Byte) (w : BufWriter) : Bool × BufWriter :=
  if bs.length + w.buf.length ≤ capacity then w.put bs
  else
    match w.flush with
    | (true, w) => w.put bs
    | (false, w) => (false, w)

/-- Something written by several calls of `write_all`, up to the first error. -/
def writeEach : List (List Byte) → BufWriter → Except DxfErr Unit × BufWriter
  | [], w => (.ok (), w)
  | bs :: pieces, w =>
    match w.writeAll bs with
    | (true, w) => writeEach pieces w
    | (false, w) => (.error .ioError, w)

/-- `Drop for BufWriter`: the buffer is flushed, and an error is ignored. -/
def drop (w : BufWriter) : Sink := w.flush.2.inner

end BufWriter

/-- What happens to the disk when a file is opened (`File::create`) and written. -/
structure Disk where
  /-- The file can be created or emptied. -/
  creatable : Bool
  /-- The answers to the calls of `write`. -/
  replies : List Reply
  deriving DecidableEq, Repr

/-- Models `save_file`, `save_file_binary` and `save_file_dxb`, src/drawing.rs:204-239: the result,
and what is in the file afterwards, if it had the contents `old` (`none`: there was no such file). -/
def saveFile (pieces : Except DxfErr (List (List Byte))) (disk : Disk) (old : Option (List Byte)) :
    Except DxfErr Unit × Option (List Byte) :=
  if disk.creatable then
    match pieces with
    | .error e => (.error e, some [])
    | .ok pieces =>
      let r := BufWriter.writeEach pieces ⟨⟨disk.replies, []⟩, []⟩
      (r.1, some r.2.drop.taken)
  else (.error .ioError, old)

end Dxf
