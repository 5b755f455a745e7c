import Verif.Model.Rd

/-! The thumbnail image, src/thumbnail.rs and `add_thumbnail_pairs` of src/drawing.rs.  `usize` has
64 bits. -/

namespace Dxf

/-- The two functions of the `image` crate that are used: `DynamicImage::write_to` with
`ImageFormat::Bmp` into a vector, and `image::load_from_memory`. -/
structure ImageCodec (Img : Type) where
  toBmp : Img → Except DxfErr (List Byte)
  load : List Byte → Except DxfErr Img

namespace Thumbnail

/-- Models `read_i32` and `read_u32`, src/thumbnail.rs:203-245: the sum of the shifted bytes, as a
32 bit word.  (It cannot overflow, as the bytes are shifted to different places.) -/
def readWord (data : List Byte) (offset : Nat) : Except DxfErr (BitVec 32) :=
  match data.drop offset with
  | b0 :: b1 :: b2 :: b3 :: _ =>
    .ok (b0.zeroExtend 32 + (b1.zeroExtend 32 <<< 8) + (b2.zeroExtend 32 <<< 16) +
      (b3.zeroExtend 32 <<< 24))
  | _ => .error .unexpectedEndOfInput

/-- Models `set_i32`, src/thumbnail.rs:247-258. -/
def setWord (data : List Byte) (offset : Nat) (value : BitVec 32) : Except DxfErr (List Byte) :=
  if data.length < offset + 4 then .error .unexpectedEndOfInput
  else .ok (data.take offset ++
    [value.truncate 8, (value >>> 8).truncate 8, (value >>> 16).truncate 8,
      (value >>> 24).truncate 8] ++ data.drop (offset + 4))

/-- The loop reading the binary data, src/thumbnail.rs:50-69. -/
def readChunks : Nat → Rd (List Byte)
  | 0 => Rd.fail .outOfFuel
  | fuel + 1 => do
    match ← Rd.next? with
    | none => return []
    | some pair =>
      if pair.code = 0 then do
        Rd.putBack pair
        return []
      else if pair.code = 310 then do
        let line ← Rd.lift pair.assertBinary
        let rest ← readChunks fuel
        return line ++ rest
      else Rd.fail (.unexpectedCode pair.code pair.offset)

/-- The file header that is put in front, src/thumbnail.rs:41-47. -/
def fileHeader : List Byte :=
  [0x42#8, 0x4D#8, 0#8, 0#8, 0#8, 0#8, 0#8, 0#8, 0#8, 0#8, 0#8, 0#8, 0#8, 0#8]

/-- Models `read_thumbnail_bytes_from_code_pairs`, src/thumbnail.rs:24-74. -/
def readBytes : Rd (Option (List Byte)) := do
  match ← Rd.next? with
  | none => return none
  | some pair =>
    if pair.code = 0 then do
      Rd.putBack pair
      return none
    else if pair.code = 90 then do
      let _ ← Rd.lift pair.assertI32
      let body ← Rd.withFuel readChunks
      let data := fileHeader ++ body
      let data ← Rd.lift (setWord data 2 (BitVec.ofNat 32 data.length))
      return some data
    else Rd.fail (.unexpectedCode pair.code pair.offset)

/-- Models `update_thumbnail_data_offset_in_situ`, src/thumbnail.rs:76-96; `none` stands for
`false`.  The sum in line 92 panics if it overflows. -/
def setOffset (data : List Byte) : Except DxfErr (Option (List Byte)) := do
  let size ← readWord data 14
  let size : Nat := (size.signExtend 64).toNat
  if 36 ≤ size then do
    let colors ← readWord data 46
    let offset := 14 + size + colors.toNat * 4
    if 2 ^ 64 ≤ offset then .error .panic
    else do
      let data ← setWord data 10 (BitVec.ofNat 32 offset)
      return some data
  else return none

/-- Models `read_thumbnail`, src/thumbnail.rs:11-22. -/
def read {Img : Type} (codec : ImageCodec Img) : Rd (Option Img) := do
  match ← readBytes with
  | none => return none
  | some data =>
    match ← Rd.lift (setOffset data) with
    | none => return none
    | some data => do
      let img ← Rd.lift (codec.load data)
      return some img

/-- Models `chunks(128)` of slices. -/
def chunks : Nat → List Byte → List (List Byte)
  | 0, _ => []
  | _, [] => []
  | fuel + 1, b :: bs => (b :: bs).take 128 :: chunks fuel ((b :: bs).drop 128)

/-- Models the inner part of `add_thumbnail_pairs`, src/drawing.rs:958-970.  `data.len() - 14`
panics if there are fewer bytes. -/
def pairs {Img : Type} (codec : ImageCodec Img) (img : Img) : Except DxfErr (List CodePair) := do
  let data ← codec.toBmp img
  if data.length < 14 then .error .panic
  else
    return [.newStr 0 str!"SECTION", .newStr 2 str!"THUMBNAILIMAGE",
      .newI32 90 (BitVec.ofNat 32 (data.length - 14))] ++
      (chunks data.length (data.drop 14)).map (CodePair.newBinary 310) ++
      [.newStr 0 str!"ENDSEC"]

end Thumbnail

end Dxf
