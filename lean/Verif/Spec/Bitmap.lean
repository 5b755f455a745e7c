import Verif.Model.Thumbnail

/-! What a bitmap file looks like, stated without the functions of the library. -/

namespace Dxf

namespace Bitmap

/-- The number that bytes stand for, the lowest byte first. -/
def number : List Byte → Nat
  | [] => 0
  | b :: bs => b.toNat + 256 * number bs

/-- The four bytes of a number, the lowest byte first. -/
def word (n : Nat) : List Byte :=
  [BitVec.ofNat 8 n, BitVec.ofNat 8 (n / 256), BitVec.ofNat 8 (n / 65536),
    BitVec.ofNat 8 (n / 16777216)]

/-- The 32 bit number at an offset. -/
def wordAt (data : List Byte) (i : Nat) : Nat := number ((data.drop i).take 4)

/-- The size of the second header of a file, at offset 14. -/
def headerSize (data : List Byte) : Nat := wordAt data 14

/-- The bits per pixel, at offset 28. -/
def bitsPerPixel (data : List Byte) : Nat := number ((data.drop 28).take 2)

/-- The number of colours in the palette as stored, at offset 46. -/
def colorsUsed (data : List Byte) : Nat := wordAt data 46

/-- The entries of the palette: none stored means all colours of the pixel size, and no palette
for more than eight bits. -/
def paletteEntries (data : List Byte) : Nat :=
  if colorsUsed data = 0 then
    if bitsPerPixel data ≤ 8 then 2 ^ bitsPerPixel data else 0
  else colorsUsed data

/-- The first header of a file with the given length and offset of the pixels. -/
def fileHeader (length offset : Nat) : List Byte :=
  [0x42#8, 0x4D#8] ++ word length ++ [0#8, 0#8, 0#8, 0#8] ++ word offset

/-- A file whose first header says what the rest of the file says. -/
structure WellFormed (data : List Byte) : Prop where
  header : data.take 14 =
    fileHeader data.length (14 + headerSize data + 4 * paletteEntries data)
  long : 50 ≤ data.length
  size : 36 ≤ headerSize data ∧ headerSize data < 2 ^ 31
  palette : colorsUsed data ≠ 0 ∨ 8 < bitsPerPixel data

end Bitmap

end Dxf
