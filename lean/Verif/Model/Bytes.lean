import Verif.Model.Dxb
import Verif.Model.BinCodec

/-! Saving a drawing as the bytes of a file and loading it from them: `Drawing::save`,
`Drawing::save_binary`, `Drawing::load` and `Drawing::load_with_encoding`. -/

namespace Dxf

variable {ds : List Decl}

/-- Models the loop over the values of one variable in `Header::read`, src/header.rs:37-57, with
`quit` standing for the test in lines 44-50 after which the iterator reads UTF-8: the loop ends
there with `none`, otherwise with the header. -/
def headerValuesUntil (vars : List (HVar ds)) (quit : Str → Rec ds → Bool) (name : Str) :
    Nat → Rec ds → Rd (Option (Rec ds))
  | 0, _ => Rd.fail .outOfFuel
  | fuel + 1, r => do
    match ← Rd.next? with
    | none => return some r
    | some pair =>
      if pair.code = 0 ∨ pair.code = 9 then do
        Rd.putBack pair
        return some r
      else do
        let r' ← Rd.lift (setHeaderValue vars name pair r)
        if quit name r' then return none else headerValuesUntil vars quit name fuel r'

/-- Models the outer loop of `Header::read`, src/header.rs:21-64, up to the place where the
iterator is told to read UTF-8 (`none`). -/
def headerLoopUntil (vars : List (HVar ds)) (quit : Str → Rec ds → Bool) :
    Nat → Rec ds → Rd (Option (Rec ds))
  | 0, _ => Rd.fail .outOfFuel
  | fuel + 1, r => do
    match ← Rd.next? with
    | none => return some r
    | some pair =>
      if pair.code = 0 then do
        Rd.putBack pair
        return some r
      else if pair.code = 9 then do
        let name ← Rd.lift pair.assertString
        match ← Rd.withFuel fun n => headerValuesUntil vars quit name n r with
        | none => return none
        | some r' => headerLoopUntil vars quit fuel r'
      else Rd.fail (.unexpectedCodePair pair)

/-- The test in src/header.rs:44-50. -/
def Header.switches (name : Str) (h : Header) : Bool :=
  decide (name = str!"$ACADVER" ∧ Version.r2007 ≤ h.version)

/-- `Header::read`, src/header.rs:21-64, up to the place where the iterator is told to read
UTF-8 (`none`). -/
def Header.readUntil (h0 : Header) : Rd (Option Header) :=
  Rd.withFuel fun fuel => headerLoopUntil Header.vars Header.switches fuel h0

namespace Drawing

variable {Img : Type}

/-- One section, up to the place where the iterator is told to read UTF-8 (`none`):
src/drawing.rs:987-1024 with `readUntil` for the header. -/
def readSectionUntil (codec : ImageCodec Img) (h0 : Header) (name : Str) (d : Drawing Img) :
    Rd (Option (Drawing Img)) :=
  if name = str!"HEADER" then do
    let h ← Header.readUntil h0
    return h.map fun h => { d with header := h }
  else do
    let d ← readSection codec h0 name d
    return some d

/-- Models `read_sections`, src/drawing.rs:974-1049, up to the place where the iterator is told to
read UTF-8; the result says whether this happens. -/
def readSectionsUntil (codec : ImageCodec Img) (h0 : Header) : Nat → Drawing Img → Rd Bool
  | 0, _ => Rd.fail .outOfFuel
  | fuel + 1, d => do
    match ← Rd.next? with
    | none => return false
    | some pair =>
      if pair.code = 0 then do
        let s ← Rd.lift pair.assertString
        if s = str!"EOF" then return false
        else if s = str!"SECTION" then do
          let pair ← Rd.next
          match pair.value with
          | .str name =>
            if pair.code = 2 then do
              match ← readSectionUntil codec h0 name d with
              | none => return true
              | some d => do
                expect str!"ENDSEC"
                readSectionsUntil codec h0 fuel d
            else Rd.fail (.unexpectedCodePair pair)
          | _ => Rd.fail (.unexpectedCodePair pair)
        else Rd.fail (.unexpectedCodePair pair)
      else Rd.fail (.unexpectedCodePair pair)

/-- `load_from_iter`, src/drawing.rs:130-148, up to the place where the iterator is told to read
UTF-8. -/
def loadUntil (codec : ImageCodec Img) (h0 : Header) (order : List Str) : Rd Bool := do
  let d ← Rd.lift (new h0 order)
  Rd.withFuel fun fuel => readSectionsUntil codec h0 fuel d.clear

/-- What `load_from_iter` is given: the results of the iterator that reads the encoding of the
caller (`main`) up to the place where it is told to read UTF-8, and those of the iterator that reads
UTF-8 (`alt`) from there on.  `TextCodePairIter::read_as_utf8`, src/code_pair_iter.rs:53-57, only
sets the encoding, and the two iterators read the same lines, so the n-th results of both come from
the same place of the file.  Later calls of `read_as_utf8` change nothing. -/
def switched (codec : ImageCodec Img) (h0 : Header) (order : List Str) (main alt : Stream) :
    Stream :=
  match loadUntil codec h0 order main with
  | (.ok true, rest) =>
    main.take (main.length - rest.length) ++ alt.drop (main.length - rest.length)
  | _ => main

/-- Models `Drawing::load_with_encoding`, src/drawing.rs:113-128; `Drawing::load`,
src/drawing.rs:106-111, is the case of `.win1252`. -/
def loadBytes (codec : ImageCodec Img) (enc : Enc) (h0 : Header) (order : List Str)
    (file : List Byte) : Except DxfErr (Drawing Img) :=
  match fileItems enc file with
  | .error e => .error e
  | .ok none => loadDxb h0 order (readLine true enc file).2
  | .ok (some (main, alt)) => (load codec h0 order (switched codec h0 order main alt)).1

/-- Models `Drawing::save`, src/drawing.rs:163-168 and 190-203. -/
def saveText (codec : ImageCodec Img) (d : Drawing Img) : Except DxfErr (List Byte) :=
  (d.codePairs codec).map (writeAscii (decide (d.version ≤ .r2004)))

/-- Models `Drawing::save_binary`, src/drawing.rs:170-175 and 190-203; the codes have two bytes from
R13 on, src/code_pair_writer.rs. -/
def saveBinary (codec : ImageCodec Img) (d : Drawing Img) : Except DxfErr (List Byte) :=
  (d.codePairs codec).map (writeBin (decide (.r13 ≤ d.version)))

end Drawing

end Dxf
