import Verif.Lemmas.Io
import Verif.Props.DxbItems

/-! Readers and writers that do not do everything at once and can fail. -/

namespace Dxf

open Drawing

variable {Img : Type} {h0 : Header} {order : List Str}

/-! ### C56: reading -/

/-- C56, delivery: when a reader does not fail, the drawing that is loaded depends only on the bytes
it delivers, not on the parts in which it delivers them, on the sizes of the buffers or on interrupted
calls.  For DXB files there must be no interrupted calls. -/
theorem C56_partial (codec : ImageCodec Img) (enc : Enc) (h0 : Header) (order : List Str)
    (size : Nat → Nat) (s : Source) (h : .failed ∉ s) (hd : IsDxb enc s.bytes → .interrupted ∉ s) :
    loadFrom codec enc h0 order size s = loadBytes codec enc h0 order s.bytes := by
  rcases s.readLine_bytes true enc with ⟨-, h1⟩ | ⟨h1, h2, h3, h4⟩
  · exact absurd h1 h
  unfold loadFrom loadBytes fileItems
  dsimp only
  unfold IsDxb at hd
  rcases hs : s.readLine true enc with ⟨e | l, s'⟩
  · rw [hs] at h1
    rw [← h1]
  · rw [hs] at h1 h2 h3 h4
    rw [← h1] at hd ⊢
    rw [← h2]
    dsimp only
    by_cases hl : l = str!"AutoCAD DXB 1.0"
    · rw [if_pos hl, if_pos hl]
      have hp := s'.parts_bytes
      have hi : .interrupted ∉ s' := fun hm => hd (by rw [hl]) (h4 hm)
      rw [Source.parts_later (fun hm => h (h3.mp hm)) hi, List.flatten_nil, List.append_nil] at hp
      dsimp only
      rw [Source.parts_later (fun hm => h (h3.mp hm)) hi, hp]
    · rw [if_neg hl, if_neg hl, Source.readToEnd_bytes, if_neg (fun hm => h (h3.mp hm))]
      simp only [bind, Except.bind]
      cases newPairIter enc l s'.bytes with
      | error e => rfl
      | ok r => rfl

/-- C56, errors: when a reader fails, the error is reported, unless the file is a DXB file.  (If the
first line cannot be decoded, that is what is reported.) -/
theorem C56_reported (codec : ImageCodec Img) (enc : Enc) (h0 : Header) (order : List Str)
    (size : Nat → Nat) (s : Source) (h : .failed ∈ s) (hd : ¬ IsDxb enc s.bytes) :
    loadFrom codec enc h0 order size s = .error .ioError ∨
    ∃ e, (readLine true enc s.bytes).1 = .error e ∧
      loadFrom codec enc h0 order size s = .error e := by
  unfold loadFrom
  rcases s.readLine_bytes true enc with ⟨h1, -⟩ | ⟨h1, -, h3, -⟩
  · rcases hs : s.readLine true enc with ⟨e | l, s'⟩
    · rw [hs] at h1
      cases h1
      exact .inl rfl
    · rw [hs] at h1
      cases h1
  · unfold IsDxb at hd
    rcases hs : s.readLine true enc with ⟨e | l, s'⟩
    · rw [hs] at h1
      exact .inr ⟨e, h1.symm, rfl⟩
    · rw [hs] at h1 h3
      rw [← h1] at hd
      left
      dsimp only
      rw [if_neg (fun hl => hd (by rw [hl])), Source.readToEnd_bytes, if_pos (h3.mpr h)]
      rfl

/-- C56, errors in DXB files: without a scale factor, every error before the end of the drawing is
reported; errors after it make no difference. -/
theorem C56_dxb (codec : ImageCodec Img) (enc : Enc) (h0 : Header) (order : List Str)
    (size : Nat → Nat) (s : Source) (hd : IsDxb enc s.bytes) (hb : byte 128 ∉ s.bytes) :
    loadFrom codec enc h0 order size s = .error .ioError ∨
    loadFrom codec enc h0 order size s = loadBytes codec enc h0 order s.bytes := by
  unfold loadFrom loadBytes fileItems
  dsimp only
  unfold IsDxb at hd
  rcases s.readLine_bytes true enc with ⟨h1, -⟩ | ⟨h1, h2, -, -⟩
  · rcases hs : s.readLine true enc with ⟨e | l, s'⟩
    · rw [hs] at h1
      cases h1
      exact .inl rfl
    · rw [hs] at h1
      cases h1
  · rcases hs : s.readLine true enc with ⟨e | l, s'⟩
    · rw [hs, hd] at h1
      cases h1
    · rw [hs, hd] at h1
      rw [hs] at h2
      cases h1
      rw [hd]
      dsimp only at h2 ⊢
      rw [if_pos rfl, if_pos rfl, ← h2, ← s'.parts_bytes]
      refine Dxb.load_whole h0 order _ _ fun hm => hb ?_
      have hsub := readLine_rest true enc s.bytes
      rw [← h2, ← s'.parts_bytes] at hsub
      rcases hsub with ⟨pre, h, -⟩ | ⟨-, h⟩
      · rw [h]
        exact List.mem_append_right _ (List.mem_cons_of_mem _ (List.mem_append_left _ hm))
      · rw [(List.append_eq_nil_iff.mp h).1] at hm
        cases hm

/-- C47 for all readers: whatever errors occur while a DXB file is read, loading gives a drawing in
which no handle occurs twice, or an error, but does not panic and does end. -/
theorem C56_safe (codec : ImageCodec Img) (enc : Enc) (hfr : h0.Fresh) (order : List Str)
    (ho : 41 + 2 * order.length < 2 ^ 64) (size : Nat → Nat) (s : Source)
    (hd : IsDxb enc s.bytes) (hb : s.bytes.length < 2 ^ 58) :
    match loadFrom codec enc h0 order size s with
    | .ok d => d.Sound
    | .error e => e ≠ .panic ∧ e ≠ .outOfFuel := by
  unfold loadFrom
  unfold IsDxb at hd
  rcases s.readLine_bytes true enc with ⟨h1, -⟩ | ⟨h1, h2, -, -⟩
  · rcases hs : s.readLine true enc with ⟨e | l, s'⟩
    · rw [hs] at h1
      cases h1
      exact ⟨fun h => (nomatch h), fun h => (nomatch h)⟩
    · rw [hs] at h1
      cases h1
  · rcases hs : s.readLine true enc with ⟨e | l, s'⟩
    · rw [hs, hd] at h1
      cases h1
    · rw [hs, hd] at h1
      rw [hs] at h2
      cases h1
      dsimp only at h2 ⊢
      rw [if_pos rfl]
      have hl := readLine_length_le true enc s.bytes
      rw [← h2, ← s'.parts_bytes, List.length_append] at hl
      have h := Dxb.load_tame (Img := Img) hfr order ho s'.parts.1 s'.parts.2 (by omega)
      cases hx : (loadDxb h0 order s'.parts.1 s'.parts.2 : Except DxfErr (Drawing Img)) with
      | ok d =>
        rw [hx] at h
        exact h
      | error e =>
        rw [hx] at h
        exact ⟨fun he => h (.inl he), fun he => h (.inr he)⟩

/-- C56 fails for DXB files with a scale factor: an error while it is read, be it only an interrupted
call, is not noticed (src/dxb_reader.rs:298-302).  The zero bytes of the factor that follow are taken
for the end of the file, and loading succeeds without any of the entities. -/
theorem C56_violated (codec : ImageCodec Img) (hfr : h0.Fresh) (order : List Str)
    (ho : 41 + 2 * order.length < 2 ^ 64) (enc : Enc) (size : Nat → Nat) (m : DxbMode) (scale : F64)
    (hz : scale.bits.toNat % 256 = 0) (items : List DxbItem) (fault : Answer)
    (hf : fault = .interrupted ∨ fault = .failed) :
    ∃ (before after : List Byte) (d' : Drawing Img), before ++ after = dxbFile m scale items ∧
      loadFrom codec enc h0 order size (Source.feed before (fault :: Source.feed after [])) =
        .ok d' ∧ d'.entities = [] := by
  have e8 : leBytes 8 scale.bits.toNat = byte 0 :: leBytes 7 (scale.bits.toNat / 256) := by
    change BitVec.ofNat 8 scale.bits.toNat :: _ = _
    congr 1
    apply BitVec.eq_of_toNat_eq
    rw [BitVec.toNat_ofNat, hz]
    rfl
  obtain ⟨d0, h1⟩ := new_ok (Img := Img) hfr order ho
  obtain ⟨s, h2⟩ := Dxb.items_torn m (leBytes 7 (scale.bits.toNat / 256) ++
    items.flatMap (DxbItem.bytes m) ++ [byte 0])
  refine ⟨Dxb.sentinel ++ (m.choose ++ [byte 128]), byte 0 :: (leBytes 7 (scale.bits.toNat / 256) ++
    items.flatMap (DxbItem.bytes m) ++ [byte 0]), d0.clear, ?_, ?_, rfl⟩
  · unfold dxbFile
    rw [e8]
    simp only [List.append_assoc, List.cons_append, List.nil_append]
  · have hp : ∀ after, Source.parts (fault :: Source.feed after []) = ([], [after]) := by
      intro after
      rcases hf with rfl | rfl
      · change (([], (Source.feed after []).parts.1 :: (Source.feed after []).parts.2) :
          List Byte × List (List Byte)) = _
        rw [Source.parts_feed]
        simp [Source.parts]
      · change (([], (Source.feed after []).parts.1 :: (Source.feed after []).parts.2) :
          List Byte × List (List Byte)) = _
        rw [Source.parts_feed]
        simp [Source.parts]
    unfold loadFrom
    rw [Source.readLine_feed]
    dsimp only
    rw [if_pos rfl, Source.parts_feed, hp, List.append_nil, loadDxb, h2]
    simp only [bind, Except.bind]
    rw [show Dxb.collect (([] : List Flat).length + 1) [] = .ok [] from rfl]
    simp only [bind, Except.bind]
    rw [h1]
    rfl

/-- The scale factors 1 and 1/2 have a zero byte in front. -/
example : F64.unit.bits.toNat % 256 = 0 ∧ halfScale.bits.toNat % 256 = 0 := by decide

/-- A reader that delivers single bytes, with interruptions, and one that fails. -/
example : (.failed : Answer) ∉ ([.data (byte 48) [], .interrupted, .data (byte 10) [byte 69]] : Source) ∧
    ¬ IsDxb .utf8 (Source.bytes [.data (byte 48) [], .interrupted, .data (byte 10) [byte 69]]) ∧
    (.failed : Answer) ∈ ([.data (byte 48) [], .failed] : Source) ∧
    ¬ IsDxb .utf8 (Source.bytes [.data (byte 48) [], .failed]) := by
  unfold IsDxb
  decide

/-- A DXB file that is read up to its end before the reader fails, and one that is not. -/
example : IsDxb .utf8 (Dxb.sentinel ++ [byte 0]) ∧ byte 128 ∉ Dxb.sentinel ++ [byte 0] ∧
    (Source.feed (Dxb.sentinel ++ [byte 0]) [.failed]).bytes = Dxb.sentinel ++ [byte 0] ∧
    (Source.feed Dxb.sentinel (.failed :: Source.feed [byte 0] [])).bytes =
      Dxb.sentinel ++ [byte 0] := by
  refine ⟨?_, by decide, by rw [Source.bytes_feed]; rfl, by rw [Source.bytes_feed]; rfl⟩
  unfold IsDxb
  rw [Dxb.sentinel_line]

/-! ### C57: writing -/

/-- What `save` writes, in the calls of `write_all`, is the file. -/
theorem C57_textPieces (codec : ImageCodec Img) (d : Drawing Img) :
    Pieces (d.textPieces codec) (d.saveText codec) := by
  unfold Pieces textPieces saveText
  cases d.codePairs codec with
  | error e => rfl
  | ok ps =>
    change Except.ok _ = Except.ok _
    congr 1
    unfold writeAscii
    dsimp only
    induction ps with
    | nil => rfl
    | cons p ps ih =>
      rw [List.flatMap_cons, List.flatMap_cons, List.flatten_append, ih]
      congr 1
      change _ ++ (_ ++ []) = utf8Encode _
      rw [List.append_nil, ← utf8Encode_append]
      unfold asciiPairText
      simp only [List.append_assoc]

/-- What `save_binary` writes, in the calls of `write_all`, is the file. -/
theorem C57_binaryPieces (codec : ImageCodec Img) (d : Drawing Img) :
    Pieces (d.binaryPieces codec) (d.saveBinary codec) := by
  unfold Pieces binaryPieces saveBinary
  cases d.codePairs codec with
  | error e => rfl
  | ok ps =>
    change Except.ok _ = Except.ok _
    congr 1
    unfold writeBin
    rw [List.flatten_append]
    congr 1
    induction ps with
    | nil => rfl
    | cons p ps ih =>
      rw [List.flatMap_cons, List.flatMap_cons, List.flatten_append, ih]
      congr 1
      change _ ++ (_ ++ []) = writeBinPair _ _
      rw [List.append_nil]
      rfl

/-- C57: however a writer takes the bytes and whatever errors it returns, saving reports success
only if everything was taken.  Otherwise it reports an error, and what was taken is the beginning
of the file. -/
theorem C57 {pieces : Except DxfErr (List (List Byte))} {save : Except DxfErr (List Byte)}
    (h : Pieces pieces save) (w : Sink) : Delivers save w (saveTo pieces w) := by
  unfold Pieces at h
  subst h
  cases pieces with
  | error e => exact .inl ⟨rfl, rfl⟩
  | ok pieces =>
    have := Sink.writeEach_spec pieces w
    change Delivers _ w (w.writeEach pieces)
    rcases hr : w.writeEach pieces with ⟨e | u, w'⟩
    · rw [hr] at this
      obtain ⟨he, a, b, h1, h2, h3⟩ := this
      exact .inr ⟨he, a, b, by rw [← h1]; rfl, h2, h3⟩
    · rw [hr] at this
      exact ⟨_, rfl, this⟩

theorem C57_text (codec : ImageCodec Img) (d : Drawing Img) (w : Sink) :
    Delivers (d.saveText codec) w (saveTo (d.textPieces codec) w) :=
  C57 (C57_textPieces codec d) w

theorem C57_binary (codec : ImageCodec Img) (d : Drawing Img) (w : Sink) :
    Delivers (d.saveBinary codec) w (saveTo (d.binaryPieces codec) w) :=
  C57 (C57_binaryPieces codec d) w

/-- C57 for DXB files, in whatever pieces they are written. -/
theorem C57_dxb (d : Drawing Img) (pieces : List (List Byte)) (h : pieces.flatten = d.saveDxb)
    (w : Sink) : Delivers (.ok d.saveDxb) w (saveTo (.ok pieces) w) :=
  C57 (pieces := .ok pieces) (congrArg Except.ok h) w

/-- C57: a writer that sooner or later takes everything gets the file. -/
theorem C57_willing {pieces : Except DxfErr (List (List Byte))} {save : Except DxfErr (List Byte)}
    (h : Pieces pieces save) {w : Sink} (hw : Willing w.replies) :
    (saveTo pieces w).1 = save.map fun _ => () := by
  unfold Pieces at h
  subst h
  cases pieces with
  | error e => rfl
  | ok pieces => exact Sink.writeEach_willing hw

/-- A writer that takes everything with interruptions, and a writer that fails. -/
example : Willing [.takes 0, .interrupted, .takes 5] ∧
    (saveTo (.ok [[byte 1, byte 2, byte 3]]) ⟨[.takes 0, .interrupted, .takes 5], []⟩).2.taken =
      [byte 1, byte 2, byte 3] ∧
    saveTo (.ok [[byte 1, byte 2, byte 3]]) ⟨[.takes 1, .failed], []⟩ =
      (.error .ioError, ⟨[], [byte 1, byte 2]⟩) := by
  refine ⟨?_, by decide, by rfl⟩
  unfold Willing
  decide

/-! ### C58: files -/

/-- C58: when the file can be created and the disk takes everything, the file is what was saved. -/
theorem C58_partial {pieces : Except DxfErr (List (List Byte))} {file : List Byte}
    (h : Pieces pieces (.ok file)) {replies : List Reply} (hw : Willing replies)
    (old : Option (List Byte)) :
    saveFile pieces ⟨true, replies⟩ old = (.ok (), some file) := by
  unfold Pieces at h
  cases pieces with
  | error e => cases h
  | ok pieces =>
    replace h : pieces.flatten = file := Except.ok.inj h
    unfold saveFile
    rw [if_pos rfl]
    dsimp only
    obtain ⟨h1, h2⟩ := BufWriter.writeEach_willing (w := ⟨⟨replies, []⟩, []⟩) hw pieces
    have h3 := BufWriter.writeEach_spec pieces ⟨⟨replies, []⟩, []⟩ (Nat.zero_le _)
    rcases hr : BufWriter.writeEach pieces ⟨⟨replies, []⟩, []⟩ with ⟨e | u, w⟩
    · rw [hr] at h1
      cases h1
    · rw [hr] at h2 h3
      obtain ⟨h4, -⟩ := BufWriter.flush_willing h2
      have h5 := w.flush_spec
      unfold BufWriter.drop
      rcases hf : w.flush with ⟨_ | _, w'⟩
      · rw [hf] at h4
        cases h4
      · rw [hf] at h5
        dsimp only at h5 ⊢
        rw [h5.1, h3.1, h]
        rfl

/-- C58: the file always holds the beginning of what was to be saved, and when success is reported
at most the last 8192 bytes are missing. -/
theorem C58_prefix {pieces : Except DxfErr (List (List Byte))} {file : List Byte}
    (h : Pieces pieces (.ok file)) (disk : Disk) (old : Option (List Byte)) :
    Leaves file disk old (saveFile pieces disk old) := by
  unfold Pieces at h
  cases pieces with
  | error e => cases h
  | ok pieces =>
    replace h : pieces.flatten = file := Except.ok.inj h
    unfold saveFile
    by_cases hc : disk.creatable = true
    · rw [if_pos hc]
      dsimp only
      have h3 := BufWriter.writeEach_spec pieces ⟨⟨disk.replies, []⟩, []⟩ (Nat.zero_le _)
      rcases hr : BufWriter.writeEach pieces ⟨⟨disk.replies, []⟩, []⟩ with ⟨e | u, w⟩
      · rw [hr] at h3
        obtain ⟨he, a, h4, h5⟩ := h3
        refine ⟨he, .inr ⟨_, rfl, ?_⟩⟩
        have := w.drop_spec.1
        rw [h5] at this
        exact this.trans (h ▸ h4)
      · rw [hr] at h3
        obtain ⟨h4, h5⟩ := h3
        obtain ⟨h6, h7⟩ := w.drop_spec
        rw [h4] at h6 h7
        refine ⟨w.drop.taken, rfl, h ▸ h6, ?_⟩
        rw [← h]
        replace h7 : pieces.flatten.length ≤ w.drop.taken.length + w.buf.length := h7
        replace h5 : w.buf.length ≤ 8192 := h5
        omega
    · rw [if_neg hc]
      exact ⟨rfl, .inl ⟨by simpa using hc, rfl⟩⟩

/-- What is written ends with a short piece. -/
theorem lost_last {xs : List (List Byte)} {last : List Byte} (h1 : last ≠ [])
    (h2 : last.length < 8192) (old : Option (List Byte)) : ∃ replies c,
      saveFile (.ok (xs ++ [last])) ⟨true, replies⟩ old = (.ok (), some c) ∧
      c ≠ (xs ++ [last]).flatten := by
  obtain ⟨replies, taken, buf, hb, h⟩ := BufWriter.writeEach_last xs last h1 h2
  have h3 := BufWriter.writeEach_spec (xs ++ [last]) ⟨⟨replies ++ [.failed], []⟩, []⟩ (Nat.zero_le _)
  rw [h [.failed]] at h3
  refine ⟨replies ++ [.failed], taken, ?_, fun he => ?_⟩
  · unfold saveFile
    rw [if_pos rfl]
    dsimp only
    rw [h [.failed]]
    cases buf with
    | nil => exact absurd rfl hb
    | cons b bs => rfl
  · have := congrArg List.length h3.1
    rw [he] at this
    simp only [BufWriter.total, List.length_append, List.length_nil] at this
    exact hb (List.eq_nil_of_length_eq_zero (by omega))

/-- C58 fails for every drawing: when the disk is full at the end, `save_file` reports success
although the end of the file is missing, since the errors of the last write are ignored when the
`BufWriter` is dropped (src/drawing.rs:212-216). -/
theorem C58_violated (codec : ImageCodec Img) (d : Drawing Img) {file : List Byte}
    (h : d.saveText codec = .ok file) (old : Option (List Byte)) : ∃ disk c,
      saveFile (d.textPieces codec) disk old = (.ok (), some c) ∧ c ≠ file := by
  have hp := C57_textPieces codec d
  unfold Pieces at hp
  rw [h] at hp
  have hx : ∃ xs, d.textPieces codec = .ok (xs ++ [utf8Encode str!"EOF\r\n"]) := by
    unfold textPieces at hp ⊢
    cases hc : d.codePairs codec with
    | error e =>
      rw [hc] at hp
      cases hp
    | ok ps =>
      obtain ⟨qs, rfl⟩ : ∃ qs, ps = qs ++ [.newStr 0 str!"EOF"] := by
        unfold codePairs at hc
        cases ho : d.objectPairs with
        | error e =>
          rw [ho] at hc
          cases hc
        | ok os =>
          cases ht : d.thumbnailPairs codec with
          | error e =>
            rw [ho] at hc
            simp only [bind, Except.bind, ht] at hc
            cases hc
          | ok ts =>
            rw [ho] at hc
            simp only [bind, Except.bind, ht] at hc
            cases hc
            exact ⟨_, rfl⟩
      refine ⟨qs.flatMap (asciiPieces (decide (d.version ≤ .r2004))) ++
        [utf8Encode (padLeft 3 ' ' (fmtInt 0) ++ str!"\r\n")], ?_⟩
      change Except.ok _ = Except.ok _
      dsimp only
      rw [List.flatMap_append, List.append_assoc]
      cases decide (d.version ≤ .r2004) <;> rfl
  obtain ⟨xs, hx⟩ := hx
  rw [hx] at hp ⊢
  obtain ⟨replies, c, h1, h2⟩ := lost_last (xs := xs) (last := utf8Encode str!"EOF\r\n") (by decide)
    (by decide) old
  exact ⟨⟨true, replies⟩, c, h1, fun he => h2 (he.trans (Except.ok.inj hp).symm)⟩

/-- C58 fails for small files in the worst way: with no space left on the disk, the file is emptied,
nothing is written, and success is reported. -/
theorem C58_small {pieces : List (List Byte)} (h : pieces.flatten.length < 8192) (more : List Reply)
    (old : Option (List Byte)) :
    saveFile (.ok pieces) ⟨true, .failed :: more⟩ old = (.ok (), some []) := by
  unfold saveFile
  rw [if_pos rfl]
  dsimp only
  rw [BufWriter.writeEach_small pieces [] (by rw [List.length_nil, Nat.zero_add]; exact h)]
  cases pieces.flatten <;> rfl

/-- An empty file is loaded as an empty drawing. -/
theorem load_empty (codec : ImageCodec Img) (hfr : h0.Fresh) (order : List Str)
    (ho : 41 + 2 * order.length < 2 ^ 64) (enc : Enc) :
    ∃ d' : Drawing Img, loadBytes codec enc h0 order [] = .ok d' ∧ d'.entities = [] := by
  obtain ⟨d0, h1⟩ := new_ok (Img := Img) hfr order ho
  have h2 : fileItems enc [] = .ok (some ([none], [none])) := by
    cases enc <;> decide +kernel
  unfold loadBytes
  rw [h2]
  dsimp only
  have h3 : switched codec h0 order [none] [none] = [none] := by
    unfold switched
    split
    · exact List.take_append_drop _ _
    · rfl
  rw [h3]
  unfold load
  rw [Rd.bind_ok (m := Rd.lift (new h0 order)) (a := d0) (by rw [h1]; rfl)]
  exact ⟨_, rfl, rfl⟩

/-- C58 fails for small files in the worst way: with no space left on the disk, a drawing is saved
with success and loaded with success, and all entities are lost. -/
theorem C58_lost (codec : ImageCodec Img) (hfr : h0.Fresh) (order : List Str)
    (ho : 41 + 2 * order.length < 2 ^ 64) (enc : Enc) (d : Drawing Img) {file : List Byte}
    (h : d.saveText codec = .ok file) (hl : file.length < 8192) (old : Option (List Byte)) :
    ∃ disk new, ∃ d' : Drawing Img,
      saveFile (d.textPieces codec) disk old = (.ok (), some new) ∧
      loadBytes codec enc h0 order new = .ok d' ∧ d'.entities = [] := by
  obtain ⟨d', h1, h2⟩ := load_empty codec hfr order ho enc
  have hp := C57_textPieces codec d
  unfold Pieces at hp
  rw [h] at hp
  cases hx : d.textPieces codec with
  | error e =>
    rw [hx] at hp
    cases hp
  | ok ps =>
    rw [hx] at hp
    replace hp : ps.flatten = file := Except.ok.inj hp
    exact ⟨⟨true, [.failed]⟩, [], d', C58_small (hp ▸ hl) [] old, h1, h2⟩

/-- C58 fails for drawings that cannot be saved: the old file is emptied before this is found out. -/
theorem C58_destroyed (codec : ImageCodec Img) (d : Drawing Img) {e : DxfErr}
    (h : d.saveText codec = .error e) (replies : List Reply) (old : List Byte) :
    saveFile (d.textPieces codec) ⟨true, replies⟩ (some old) = (.error e, some []) := by
  have hp := C57_textPieces codec d
  unfold Pieces at hp
  rw [h] at hp
  cases hx : d.textPieces codec with
  | ok ps =>
    rw [hx] at hp
    cases hp
  | error e' =>
    rw [hx] at hp
    cases hp
    rfl

/-- What is saved has less than 8192 bytes. -/
private def isSmall : Except DxfErr (List Byte) → Bool
  | .ok file => decide (file.length < 8192)
  | .error _ => false

private def noImage : ImageCodec Unit :=
  ⟨fun _ => .error .imageError, fun _ => .error .imageError⟩

/-- A drawing of version R10 with a line. -/
private def small : Drawing Unit where
  header := Rec.set (Rec.dflt Header.decls) 0 (.r10 : Version)
  classes := []
  tables := fun _ => []
  blocks := []
  entities := [⟨⟨.line, 0, Entry.dflt _⟩, Extra.dflt⟩]
  objects := []
  thumbnail := none

private theorem small_ok : isSmall (small.saveText noImage) = true := by decide +kernel

/-- A drawing with a small file, and one that cannot be saved. -/
example : (∃ file, small.saveText noImage = .ok file ∧ file.length < 8192 ∧ small.entities ≠ []) ∧
    ∃ e, ({ small with
      header := Rec.set small.header 0 (.r2000 : Version)
      thumbnail := some () } : Drawing Unit).saveText noImage = .error e := by
  constructor
  · have h := small_ok
    unfold isSmall at h
    split at h
    · rename_i file hs
      exact ⟨file, hs, of_decide_eq_true h, List.cons_ne_nil _ _⟩
    · cases h
  · exact ⟨_, rfl⟩

/-- Disks that take everything, with interruptions. -/
example : Willing [.takes 4095, .interrupted, .takes 0] ∧ Pieces (.ok [[byte 1], [byte 2]])
    (.ok [byte 1, byte 2]) ∧
    saveFile (.ok [[byte 1], [byte 2]]) ⟨true, [.interrupted, .takes 0]⟩ none =
      (.ok (), some [byte 1, byte 2]) := by
  refine ⟨?_, rfl, rfl⟩
  unfold Willing
  decide

end Dxf
