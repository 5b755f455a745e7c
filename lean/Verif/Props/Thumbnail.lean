import Verif.Lemmas.Thumbnail

/-! C34: the bytes of a thumbnail stay a valid bitmap. -/

namespace Dxf

open Bitmap Thumbnail

/-- Whatever the pieces in which the data of a file are stored, the bytes that are put together are
a file header with the length of the file, and the pieces in their order. -/
theorem C34_bytes {ps : List CodePair} {pieces : List (List Byte)} {q : CodePair} {n : I32}
    (hq : q.code = 90) (hn : q.value = .integer n)
    (h : List.Forall₂ (fun p bs => p.code = 310 ∧ p.value = .binary bs) ps pieces)
    {last : CodePair} (hl : last.code = 0) (rest : Stream) :
    readBytes (toStream (q :: ps ++ [last]) ++ rest) =
      (.ok (some (Bitmap.fileHeader (14 + pieces.flatten.length) 0 ++ pieces.flatten)),
        toStream [last] ++ rest) := by
  have := readBytes_ok hq hn h (rest := some (.ok last) :: rest) ⟨last, rest, rfl, hl⟩
  simpa [toStream] using this

example : readBytes (toStream ([.newI32 90 3#32] ++ [.newBinary 310 [1#8, 2#8], .newBinary 310 [3#8]] ++
    [.newStr 0 str!"ENDSEC"]) ++ []) =
    (.ok (some [0x42#8, 0x4D#8, 17#8, 0#8, 0#8, 0#8, 0#8, 0#8, 0#8, 0#8, 0#8, 0#8, 0#8, 0#8,
      1#8, 2#8, 3#8]), toStream [.newStr 0 str!"ENDSEC"] ++ []) :=
  C34_bytes (pieces := [[1#8, 2#8], [3#8]]) rfl rfl (.cons ⟨rfl, rfl⟩ (.cons ⟨rfl, rfl⟩ .nil)) rfl []

/-- What is written for an image: the number of bytes behind the file header, and these bytes in
pieces of at most 128 bytes. -/
theorem C34_written {Img : Type} {codec : ImageCodec Img} {img : Img} {ps : List CodePair}
    (h : Thumbnail.pairs codec img = .ok ps) :
    ∃ (data : List Byte) (pieces : List (List Byte)), codec.toBmp img = .ok data ∧ 14 ≤ data.length ∧
      pieces.flatten = data.drop 14 ∧ (∀ c ∈ pieces, 0 < c.length ∧ c.length ≤ 128) ∧
      ps = [.newStr 0 str!"SECTION", .newStr 2 str!"THUMBNAILIMAGE",
        .newI32 90 (BitVec.ofNat 32 (data.length - 14))] ++ pieces.map (CodePair.newBinary 310) ++
        [.newStr 0 str!"ENDSEC"] := by
  unfold Thumbnail.pairs at h
  cases hb : codec.toBmp img with
  | error e => rw [hb] at h; cases h
  | ok data =>
    rw [hb] at h
    change (if data.length < 14 then _ else _) = _ at h
    split at h
    · cases h
    · cases h
      exact ⟨data, _, rfl, by omega, chunks_flatten _ _ (by simp), chunks_length _ _, rfl⟩

/-- Saving a thumbnail panics only if the image library makes a bitmap that is shorter than a file
header. -/
theorem C34_save_panics {Img : Type} {codec : ImageCodec Img} {img : Img} {data : List Byte}
    (h : codec.toBmp img = .ok data) :
    Thumbnail.pairs codec img = .error .panic ↔ data.length < 14 := by
  unfold Thumbnail.pairs
  rw [h]
  change (if data.length < 14 then _ else _) = _ ↔ _
  split
  · simp_all
  · rename_i hn
    exact Iff.intro (fun h => nomatch h) (fun h => absurd h hn)

/-- Too few bytes for the two headers are an error, and no byte behind the end is touched. -/
theorem C34_truncated (data : List Byte)
    (h : data.length < 18 ∨ 36 ≤ headerSize data ∧ data.length < 50) :
    setOffset data = .error .unexpectedEndOfInput := by
  rw [setOffset_eq]
  by_cases h1 : data.length < 18
  · rw [if_pos h1]
  · have h2 : 36 ≤ headerSize data ∧ data.length < 50 := h.resolve_left h1
    rw [if_neg h1, if_neg (by omega), if_pos h2.2]

example : setOffset (List.replicate 14 0#8 ++ [40#8, 0#8, 0#8, 0#8]) =
    .error .unexpectedEndOfInput :=
  C34_truncated _ (.inr ⟨by decide, by decide⟩)

/-- The offset of the pixels: the two headers and four bytes for each colour that is said to be
used.  No other byte is changed. -/
theorem C34_offset (data : List Byte) (hl : 50 ≤ data.length) (h : 36 ≤ headerSize data)
    (hb : headerSize data < 2 ^ 31) :
    setOffset data = .ok (some (data.take 10 ++
      word (14 + headerSize data + 4 * colorsUsed data) ++ data.drop 14)) := by
  rw [setOffset_eq, if_neg (by omega), if_neg (by omega), if_neg (by omega), if_neg (by omega)]
  rfl

/-- The offset counts the entries of the palette, if there is a number of colours in the header or
if there are more than eight bits for a pixel. -/
theorem C34_palette_partial (data : List Byte) (hl : 50 ≤ data.length) (h : 36 ≤ headerSize data)
    (hb : headerSize data < 2 ^ 31) (hp : colorsUsed data ≠ 0 ∨ 8 < bitsPerPixel data) :
    setOffset data = .ok (some (data.take 10 ++
      word (14 + headerSize data + 4 * paletteEntries data) ++ data.drop 14)) := by
  rw [C34_offset data hl h hb]
  have : paletteEntries data = colorsUsed data := by
    unfold paletteEntries
    split
    · rename_i h0
      rw [if_neg (by omega), h0]
    · rfl
  rw [this]

/-- A header of 40 bytes with the given bits per pixel and number of colours. -/
def smallBitmap (bpp colors : Byte) : List Byte :=
  Bitmap.fileHeader 54 0 ++ [40#8, 0#8, 0#8, 0#8] ++ List.replicate 10 0#8 ++ [bpp, 0#8] ++
    List.replicate 16 0#8 ++ [colors, 0#8, 0#8, 0#8] ++ List.replicate 4 0#8

example : 50 ≤ (smallBitmap 8 7).length ∧ 36 ≤ headerSize (smallBitmap 8 7) ∧
    headerSize (smallBitmap 8 7) < 2 ^ 31 ∧ colorsUsed (smallBitmap 8 7) ≠ 0 := by decide

/-- The full claim is false: with no number of colours the palette of an image with eight bits for a
pixel has 256 entries, but the offset does not count them. -/
theorem C34_palette_violated :
    ∃ data, 50 ≤ data.length ∧ headerSize data = 40 ∧ bitsPerPixel data = 8 ∧
      paletteEntries data = 256 ∧
      ∃ out, setOffset data = .ok (some out) ∧ wordAt out 10 = 54 ∧
        wordAt out 10 ≠ 14 + headerSize data + 4 * paletteEntries data :=
  ⟨smallBitmap 8 0, by decide, by decide, by decide, by decide, _,
    C34_offset _ (by decide) (by decide) (by decide), by decide, by decide⟩

/-- Loading panics exactly for a negative size of the second header that is so near to zero that the
sum is not negative. -/
theorem C34_load_panics (data : List Byte) :
    setOffset data = .error .panic ↔ 50 ≤ data.length ∧ 2 ^ 31 ≤ headerSize data ∧
      2 ^ 32 ≤ 14 + headerSize data + 4 * colorsUsed data := by
  rw [setOffset_eq]
  by_cases h1 : data.length < 18
  · rw [if_pos h1]; simp; omega
  rw [if_neg h1]
  by_cases h2 : headerSize data < 36
  · rw [if_pos h2]; simp; omega
  rw [if_neg h2]
  by_cases h3 : data.length < 50
  · rw [if_pos h3]; simp; omega
  rw [if_neg h3]
  by_cases h4 : 2 ^ 31 ≤ headerSize data ∧ 2 ^ 32 ≤ 14 + headerSize data + 4 * colorsUsed data
  · rw [if_pos h4]; simp only [true_iff]; exact ⟨by omega, h4⟩
  · rw [if_neg h4]; simp only [reduceCtorEq, false_iff]; exact fun h => h4 h.2

/-- A file that makes loading panic: the size of the second header is −1. -/
example : setOffset (List.replicate 14 0#8 ++ List.replicate 4 255#8 ++ List.replicate 32 0#8) =
    .error .panic :=
  (C34_load_panics _).mpr (by decide)

theorem take_fileHeader {data : List Byte} {n m : Nat} (h : data.take 14 = Bitmap.fileHeader n m) :
    data = Bitmap.fileHeader n m ++ data.drop 14 := by
  rw [← h, List.take_append_drop]

theorem number_drop {data data' : List Byte} (h : data.drop 14 = data'.drop 14) {i : Nat}
    (hi : 14 ≤ i) : data.drop i = data'.drop i := by
  have e : ∀ l : List Byte, l.drop i = (l.drop 14).drop (i - 14) := fun l => by
    rw [List.drop_drop]
    congr 1
    omega
  rw [e data, e data', h]

/-- A thumbnail whose bitmap is well formed comes back as the same bytes, so that the image that is
loaded is the one the image library makes of its own bitmap. -/
theorem C34_roundtrip {Img : Type} {codec : ImageCodec Img} {img : Img} {data : List Byte}
    (h : codec.toBmp img = .ok data) (hw : WellFormed data) {ps : List CodePair}
    (hp : Thumbnail.pairs codec img = .ok ps) (rest : List CodePair) :
    ∃ body, ps = [.newStr 0 str!"SECTION", .newStr 2 str!"THUMBNAILIMAGE"] ++ body ++
        [.newStr 0 str!"ENDSEC"] ∧
      Thumbnail.read codec (toStream (body ++ .newStr 0 str!"ENDSEC" :: rest)) =
        ((codec.load data).map some, toStream (.newStr 0 str!"ENDSEC" :: rest)) := by
  obtain ⟨data', pieces, hd, h14, hf, -, rfl⟩ := C34_written hp
  obtain rfl : data = data' := by rw [h] at hd; cases hd; rfl
  refine ⟨[.newI32 90 (BitVec.ofNat 32 (data.length - 14))] ++
    pieces.map (CodePair.newBinary 310), rfl, ?_⟩
  have hh : List.Forall₂ (fun (p : CodePair) bs => p.code = 310 ∧ p.value = .binary bs)
      (pieces.map (CodePair.newBinary 310)) pieces := by
    rw [List.forall₂_map_left_iff]
    exact List.forall₂_same.mpr fun _ _ => ⟨rfl, rfl⟩
  have h1 := C34_bytes (q := .newI32 90 (BitVec.ofNat 32 (data.length - 14))) rfl rfl hh
    (last := .newStr 0 str!"ENDSEC") rfl (toStream rest)
  have hl : 14 + pieces.flatten.length = data.length := by
    rw [hf, List.length_drop]
    omega
  rw [hl, hf] at h1
  unfold Thumbnail.read
  have e : toStream ([.newI32 90 (BitVec.ofNat 32 (data.length - 14))] ++
      pieces.map (CodePair.newBinary 310) ++ .newStr 0 str!"ENDSEC" :: rest) =
      toStream ([.newI32 90 (BitVec.ofNat 32 (data.length - 14))] ++
      pieces.map (CodePair.newBinary 310) ++ [.newStr 0 str!"ENDSEC"]) ++ toStream rest := by
    simp [toStream]
  have e2 : toStream (.newStr 0 str!"ENDSEC" :: rest) =
      toStream [.newStr 0 str!"ENDSEC"] ++ toStream rest := by simp [toStream]
  rw [e, e2]
  refine (Rd.bind_ok h1).trans ?_
  let data0 := Bitmap.fileHeader data.length 0 ++ data.drop 14
  have h0 : data0.drop 14 = data.drop 14 := rfl
  have k1 : headerSize data0 = headerSize data :=
    congrArg (fun l : List Byte => number (l.take 4)) (number_drop h0 (i := 14) (by omega))
  have k2 : colorsUsed data0 = colorsUsed data :=
    congrArg (fun l : List Byte => number (l.take 4)) (number_drop h0 (i := 46) (by omega))
  have k3 : bitsPerPixel data0 = bitsPerPixel data :=
    congrArg (fun l : List Byte => number (l.take 2)) (number_drop h0 (i := 28) (by omega))
  have k4 : paletteEntries data0 = paletteEntries data := by unfold paletteEntries; rw [k2, k3]
  have hs : setOffset data0 = .ok (some data) := by
    have hl0 : data0.length = data.length := by
      have : data0.length = 14 + (data.drop 14).length := by
        simp only [data0, List.length_append]
        rfl
      rw [this, List.length_drop]
      omega
    have := hw.long
    have hsz := hw.size
    rw [C34_palette_partial data0 (by omega) (by omega) (by omega) (by rw [k2, k3]; exact hw.palette),
      k1, k4]
    congr 2
    exact (take_fileHeader hw.header).symm
  change (Rd.lift (setOffset data0) >>= _ : Rd _) _ = _
  rw [hs]
  refine (Rd.bind_ok (m := Rd.lift _) rfl).trans ?_
  change (Rd.lift (codec.load data) >>= _ : Rd _) _ = _
  cases codec.load data <;> rfl

/-- The bitmap of the next example: 54 bytes, 24 bits per pixel, no palette. -/
def plainBitmap : List Byte :=
  Bitmap.fileHeader 58 54 ++ [40#8, 0#8, 0#8, 0#8] ++ List.replicate 10 0#8 ++ [24#8, 0#8] ++
    List.replicate 24 0#8 ++ [1#8, 2#8, 3#8, 0#8]

example : WellFormed plainBitmap := ⟨by decide, by decide, by decide, by decide⟩

end Dxf
