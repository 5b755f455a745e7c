import Verif.Lemmas.Hex
import Verif.Model.Encoding

/-! Lemmas about UTF-8, WINDOWS-1252 and line reading. -/

namespace Dxf

theorem byte_toNat {n : Nat} (h : n < 256) : (byte n).toNat = n := by
  unfold byte; rw [BitVec.toNat_ofNat]; omega

theorem utf8Encode_nil : utf8Encode [] = [] := rfl

theorem utf8Encode_cons (c : Char) (s : Str) :
    utf8Encode (c :: s) = utf8EncodeChar c ++ utf8Encode s := by
  simp [utf8Encode, List.flatMap_cons]

theorem utf8Encode_append (s t : Str) : utf8Encode (s ++ t) = utf8Encode s ++ utf8Encode t := by
  simp [utf8Encode, List.flatMap_append]

theorem utf8EncodeChar_ascii {c : Char} (h : c.toNat < 128) :
    utf8EncodeChar c = [byte c.toNat] := by
  unfold utf8EncodeChar; simp only; rw [if_pos (by omega)]

theorem utf8Encode_ascii {s : Str} (h : ∀ c ∈ s, c.toNat < 128) :
    utf8Encode s = s.map (fun c => byte c.toNat) := by
  induction s with
  | nil => rfl
  | cons c cs ih =>
    rw [utf8Encode_cons, utf8EncodeChar_ascii (h c List.mem_cons_self),
      ih (fun d hd => h d (List.mem_cons_of_mem _ hd))]
    rfl

/-- Decoding what encoding one character produced. -/
theorem utf8Decode_char (c : Char) (r : List Byte) :
    utf8Decode (utf8EncodeChar c ++ r) = (utf8Decode r).map (c :: ·) := by
  have hv := toNat_valid c
  have hc : Char.ofNat c.toNat = c := Char.ofNat_toNat c
  have hlt : c.toNat < 0x110000 := by
    rcases hv with h | h <;> omega
  unfold utf8EncodeChar
  simp only
  generalize hn : c.toNat = n at *
  split
  · rw [List.singleton_append, utf8Decode.eq_def]
    simp only
    rw [byte_toNat (by omega), if_pos (by omega), hc]
  · split
    · simp only [List.cons_append, List.nil_append]
      rw [utf8Decode]
      simp only
      rw [byte_toNat (by omega), byte_toNat (by omega), if_neg (by omega), if_neg (by omega),
        if_neg (by simp [isCont]; omega), if_pos (by omega)]
      rw [show (192 + n / 64 - 192) * 64 + (128 + n % 64 - 128) = n by omega, hc]
    · split
      · simp only [List.cons_append, List.nil_append]
        rw [utf8Decode]
        simp only
        rw [byte_toNat (by omega), byte_toNat (by omega), byte_toNat (by omega),
          if_neg (by omega), if_neg (by omega), if_neg (by simp [isCont]; omega),
          if_neg (by omega), if_neg (by simp [isCont]; omega), if_pos (by omega)]
        rw [show (224 + n / 4096 - 224) * 4096 + (128 + n / 64 % 64 - 128) * 64 +
          (128 + n % 64 - 128) = n by omega, hc]
        rw [if_neg]
        rcases hv with h | h <;> omega
      · simp only [List.cons_append, List.nil_append]
        rw [utf8Decode]
        simp only
        rw [byte_toNat (by omega), byte_toNat (by omega), byte_toNat (by omega),
          byte_toNat (by omega),
          if_neg (by omega), if_neg (by omega), if_neg (by simp [isCont]; omega),
          if_neg (by omega), if_neg (by simp [isCont]; omega), if_neg (by omega),
          if_neg (by simp [isCont]; omega), if_pos (by omega)]
        rw [show (240 + n / 262144 - 240) * 262144 + (128 + n / 4096 % 64 - 128) * 4096 +
          (128 + n / 64 % 64 - 128) * 64 + (128 + n % 64 - 128) = n by omega, hc]
        rw [if_neg (by omega)]

theorem utf8Decode_encode (s : Str) : utf8Decode (utf8Encode s) = some s := by
  induction s with
  | nil => rw [utf8Encode_nil, utf8Decode]
  | cons c cs ih => rw [utf8Encode_cons, utf8Decode_char, ih]; rfl

/-- Bytes of a multi-byte character are at least 0x80. -/
theorem utf8EncodeChar_bytes (c : Char) : ∀ b ∈ utf8EncodeChar c,
    b.toNat = c.toNat ∨ (128 ≤ b.toNat ∧ b.toNat < 0xF5 ∧ 128 ≤ c.toNat) := by
  intro b hb
  have hv := toNat_valid c
  have hlt : c.toNat < 0x110000 := by
    rcases hv with h | h <;> omega
  unfold utf8EncodeChar at hb
  simp only at hb
  generalize c.toNat = n at *
  split at hb
  · simp only [List.mem_singleton] at hb; subst hb
    rw [byte_toNat (by omega)]; left; rfl
  · split at hb
    · simp only [List.mem_cons, List.not_mem_nil, or_false] at hb
      rcases hb with rfl | rfl <;> rw [byte_toNat (by omega)] <;> omega
    · split at hb
      · simp only [List.mem_cons, List.not_mem_nil, or_false] at hb
        rcases hb with rfl | rfl | rfl <;> rw [byte_toNat (by omega)] <;> omega
      · simp only [List.mem_cons, List.not_mem_nil, or_false] at hb
        rcases hb with rfl | rfl | rfl | rfl <;> rw [byte_toNat (by omega)] <;> omega

theorem utf8Encode_no_lf {s : Str} (h : ∀ c ∈ s, c ≠ '\n') : 0x0A#8 ∉ utf8Encode s := by
  intro hm
  simp only [utf8Encode, List.mem_flatMap] at hm
  obtain ⟨c, hc, hb⟩ := hm
  rcases utf8EncodeChar_bytes c _ hb with h1 | h1
  · apply h c hc
    have h2 : c.toNat = 10 := h1.symm
    rw [char_eq_ofNat h2]
  · have : (0x0A#8).toNat = 10 := rfl
    omega

/-- First byte of a character's encoding: 0xEF only for U+F000 - U+FFFF, never FE, FF. -/
theorem utf8EncodeChar_head (c : Char) : ∃ b r, utf8EncodeChar c = b :: r ∧ b.toNat < 0xF5 ∧
    (b.toNat = 0xEF → 0xF000 ≤ c.toNat ∧ c.toNat < 0x10000) := by
  have hv := toNat_valid c
  have hlt : c.toNat < 0x110000 := by
    rcases hv with h | h <;> omega
  unfold utf8EncodeChar
  simp only
  generalize c.toNat = n at *
  split
  · exact ⟨_, _, rfl, by rw [byte_toNat (by omega)]; omega, by rw [byte_toNat (by omega)]; omega⟩
  · split
    · exact ⟨_, _, rfl, by rw [byte_toNat (by omega)]; omega, by rw [byte_toNat (by omega)]; omega⟩
    · split
      · exact ⟨_, _, rfl, by rw [byte_toNat (by omega)]; omega,
          by rw [byte_toNat (by omega)]; omega⟩
      · exact ⟨_, _, rfl, by rw [byte_toNat (by omega)]; omega,
          by rw [byte_toNat (by omega)]; omega⟩

/-- Three-byte encoding `EF BB BF` belongs to U+FEFF only. -/
theorem utf8_bom {c : Char} {s : Str} {r : List Byte}
    (h : utf8Encode (c :: s) = 0xEF#8 :: 0xBB#8 :: 0xBF#8 :: r) : c.toNat = 0xFEFF := by
  rw [utf8Encode_cons] at h
  have hv := toNat_valid c
  have hlt : c.toNat < 0x110000 := by
    rcases hv with h | h <;> omega
  unfold utf8EncodeChar at h
  simp only at h
  generalize c.toNat = n at *
  have e1 : (0xEF#8).toNat = 0xEF := rfl
  have e2 : (0xBB#8).toNat = 0xBB := rfl
  have e3 : (0xBF#8).toNat = 0xBF := rfl
  split at h
  · have := congrArg (fun b : List Byte => (b.map BitVec.toNat).head?) h
    simp only [List.singleton_append, List.map_cons, List.head?_cons, Option.some.injEq] at this
    rw [byte_toNat (by omega)] at this; omega
  · split at h
    · have := congrArg (fun b : List Byte => (b.map BitVec.toNat).head?) h
      simp only [List.cons_append, List.map_cons, List.head?_cons, Option.some.injEq] at this
      rw [byte_toNat (by omega)] at this; omega
    · split at h
      · simp only [List.cons_append, List.nil_append, List.cons.injEq] at h
        obtain ⟨h1, h2, h3, _⟩ := h
        have h1 := congrArg BitVec.toNat h1
        have h2 := congrArg BitVec.toNat h2
        have h3 := congrArg BitVec.toNat h3
        rw [byte_toNat (by omega)] at h1 h2 h3
        omega
      · have := congrArg (fun b : List Byte => (b.map BitVec.toNat).head?) h
        simp only [List.cons_append, List.map_cons, List.head?_cons, Option.some.injEq] at this
        rw [byte_toNat (by omega)] at this; omega

/-- `decode` without a byte order mark. -/
theorem decode_no_bom (enc : Enc) (bs : List Byte)
    (h1 : ∀ r, bs ≠ 0xEF#8 :: 0xBB#8 :: 0xBF#8 :: r)
    (h2 : ∀ r, bs ≠ 0xFE#8 :: 0xFF#8 :: r) (h3 : ∀ r, bs ≠ 0xFF#8 :: 0xFE#8 :: r) :
    decode enc bs = match enc with
      | .win1252 => some (bs.map win1252Char)
      | .utf8 => utf8Decode bs := by
  unfold decode
  split
  · exact absurd rfl (h1 _)
  · exact absurd rfl (h2 _)
  · exact absurd rfl (h3 _)
  · rfl

theorem utf8Encode_not_utf16 (s : Str) (a b : Byte) (ha : 0xF5 ≤ a.toNat) (r : List Byte) :
    utf8Encode s ≠ a :: b :: r := by
  intro h
  cases s with
  | nil => rw [utf8Encode_nil] at h; simp at h
  | cons c cs =>
    rw [utf8Encode_cons] at h
    obtain ⟨x, y, hx, hlt, _⟩ := utf8EncodeChar_head c
    rw [hx] at h
    simp only [List.cons_append, List.cons.injEq] at h
    rw [h.1] at hlt; omega

theorem decode_utf8_encode (s : Str) (h : s.head? ≠ some (Char.ofNat 0xFEFF)) :
    decode .utf8 (utf8Encode s) = some s := by
  rw [decode_no_bom]
  · exact utf8Decode_encode s
  · intro r hr
    cases s with
    | nil => rw [utf8Encode_nil] at hr; simp at hr
    | cons c cs => exact h (by rw [List.head?_cons, char_eq_ofNat (utf8_bom hr)])
  · intro r; exact utf8Encode_not_utf16 s _ _ (by decide) r
  · intro r; exact utf8Encode_not_utf16 s _ _ (by decide) r

theorem win1252Char_ascii {c : Char} (h : c.toNat < 128) : win1252Char (byte c.toNat) = c := by
  unfold win1252Char
  rw [byte_toNat (by omega), if_neg (by omega), Char.ofNat_toNat]

theorem map_win1252_ascii {s : Str} (h : ∀ c ∈ s, c.toNat < 128) :
    (s.map fun c => byte c.toNat).map win1252Char = s := by
  induction s with
  | nil => rfl
  | cons c cs ih =>
    rw [List.map_cons, List.map_cons, win1252Char_ascii (h c List.mem_cons_self),
      ih (fun d hd => h d (List.mem_cons_of_mem _ hd))]

theorem bom_toNat : (Char.ofNat 0xFEFF).toNat = 0xFEFF :=
  toNat_ofNat_of_valid (Or.inr ⟨by omega, by omega⟩)

theorem decode_ascii (enc : Enc) {s : Str} (h : ∀ c ∈ s, c.toNat < 128) :
    decode enc (utf8Encode s) = some s := by
  have hF : s.head? ≠ some (Char.ofNat 0xFEFF) := by
    intro hh
    have := h _ (List.mem_of_mem_head? hh)
    rw [bom_toNat] at this
    omega
  cases enc with
  | utf8 => exact decode_utf8_encode s hF
  | win1252 =>
    rw [decode_no_bom]
    · simp only
      rw [utf8Encode_ascii h, map_win1252_ascii h]
    · intro r hr
      cases s with
      | nil => rw [utf8Encode_nil] at hr; simp at hr
      | cons c cs =>
        have := utf8_bom hr
        have := h c List.mem_cons_self
        omega
    · intro r; exact utf8Encode_not_utf16 s _ _ (by decide) r
    · intro r; exact utf8Encode_not_utf16 s _ _ (by decide) r

/-! ### Lines -/

theorem lineBytes_plain (allowBom : Bool) : ∀ (l rest : List Byte) (i : Nat),
    0x0A#8 ∉ l → (allowBom = true → i = 0 → l.head? ≠ some 0xEF#8) → (0 < i ∨ l ≠ [] ∨ True) →
    lineBytes allowBom i false (l ++ 0x0A#8 :: rest) = (l, rest) := by
  intro l
  induction l with
  | nil =>
    intro rest i _ _ _
    rw [List.nil_append, lineBytes]
    rw [if_neg (by simp), if_neg (by simp), if_pos rfl]
  | cons b bs ih =>
    intro rest i hl hb _
    rw [List.cons_append, lineBytes]
    have hb0 : b ≠ 0x0A#8 := fun h => hl (by rw [h]; exact List.mem_cons_self)
    rw [if_neg, if_neg (by simp), if_neg hb0]
    · simp only
      rw [ih rest (i + 1) (fun h => hl (List.mem_cons_of_mem _ h)) (by omega) (by simp)]
    · rintro ⟨h1, h2, h3⟩
      exact hb h3 h1 (by rw [h2]; rfl)

theorem stripCr_cr (s : Str) : stripCr (s ++ ['\r']) = s := by
  unfold stripCr
  simp

/-- Reading back one written line. -/
theorem readLine_written (allowBom : Bool) (enc : Enc) (s : Str) (rest : List Byte)
    (hs : ∀ c ∈ s, c ≠ '\n')
    (hb : allowBom = true → (utf8Encode s).head? ≠ some 0xEF#8)
    (hd : decode enc (utf8Encode (s ++ ['\r'])) = some (s ++ ['\r'])) :
    readLine allowBom enc (utf8Encode (s ++ str!"\r\n") ++ rest) = (.ok s, rest) := by
  have e : utf8Encode (s ++ str!"\r\n") ++ rest = utf8Encode (s ++ ['\r']) ++ 0x0A#8 :: rest := by
    rw [show s ++ ['\r', '\n'] = (s ++ ['\r']) ++ ['\n'] by simp, utf8Encode_append _ ['\n'],
      List.append_assoc]
    rfl
  unfold readLine
  rw [e, lineBytes_plain]
  · simp only [hd, stripCr_cr]
  · apply utf8Encode_no_lf
    intro c hc
    rcases List.mem_append.mp hc with hc | hc
    · exact hs c hc
    · simp only [List.mem_singleton] at hc; subst hc; decide
  · intro hbom _
    rw [utf8Encode_append]
    cases hu : utf8Encode s with
    | nil => simp [utf8Encode]; decide
    | cons x y =>
      rw [List.cons_append, List.head?_cons, ← List.head?_cons (l := y), ← hu]
      exact hb hbom
  · simp

/-- Reading a line consumes input. -/
theorem lineBytes_length (allowBom : Bool) : ∀ (bs : List Byte) (i : Nat) (skip : Bool),
    bs ≠ [] → (lineBytes allowBom i skip bs).2.length < bs.length := by
  intro bs
  induction bs with
  | nil => intro _ _ h; exact absurd rfl h
  | cons b bs ih =>
    intro i skip _
    have step : ∀ j k, (lineBytes allowBom j k bs).2.length < bs.length + 1 := by
      intro j k
      cases bs with
      | nil => simp [lineBytes]
      | cons x xs => have := ih j k (by simp); omega
    rw [lineBytes]
    split
    · simpa using step _ _
    · split
      · simpa using step _ _
      · split
        · simp
        · simpa using step _ _

theorem readLine_length (allowBom : Bool) (enc : Enc) {bs : List Byte} (h : bs ≠ []) :
    (readLine allowBom enc bs).2.length < bs.length := by
  unfold readLine
  simp only
  split <;> exact lineBytes_length _ _ _ _ h

theorem readLine_length_le (allowBom : Bool) (enc : Enc) (bs : List Byte) :
    (readLine allowBom enc bs).2.length ≤ bs.length := by
  cases bs with
  | nil => unfold readLine; simp only [lineBytes]; split <;> simp
  | cons b bs => exact Nat.le_of_lt (readLine_length _ _ (by simp))

/-- Reading a line takes the bytes up to and including the first line feed. -/
theorem lineBytes_rest (allowBom : Bool) : ∀ (bs : List Byte) (i : Nat) (skip : Bool),
    (∃ pre, bs = pre ++ 0x0A#8 :: (lineBytes allowBom i skip bs).2 ∧ 0x0A#8 ∉ pre) ∨
    (0x0A#8 ∉ bs ∧ (lineBytes allowBom i skip bs).2 = []) := by
  intro bs
  induction bs with
  | nil => intro i skip; right; simp [lineBytes]
  | cons b bs ih =>
    intro i skip
    have step : ∀ j k, b ≠ 0x0A#8 →
        ((∃ pre, b :: bs = pre ++ 0x0A#8 :: (lineBytes allowBom j k bs).2 ∧ 0x0A#8 ∉ pre) ∨
        (0x0A#8 ∉ b :: bs ∧ (lineBytes allowBom j k bs).2 = [])) := by
      intro j k hb
      rcases ih j k with ⟨pre, h1, h2⟩ | ⟨h1, h2⟩
      · left
        refine ⟨b :: pre, by rw [List.cons_append, ← h1], ?_⟩
        intro h
        rcases List.mem_cons.mp h with h | h
        · exact hb h.symm
        · exact h2 h
      · right
        refine ⟨?_, h2⟩
        intro h
        rcases List.mem_cons.mp h with h | h
        · exact hb h.symm
        · exact h1 h
    rw [lineBytes]
    split
    · rename_i h; exact step _ _ (by rw [h.2.1]; decide)
    · split
      · rename_i h
        apply step
        rcases h.1 with h | h <;> rw [h.2] <;> decide
      · split
        · rename_i h; left; exact ⟨[], by rw [h]; rfl, by simp⟩
        · rename_i h; exact step _ _ h

theorem readLine_rest (allowBom : Bool) (enc : Enc) (bs : List Byte) :
    (∃ pre, bs = pre ++ 0x0A#8 :: (readLine allowBom enc bs).2 ∧ 0x0A#8 ∉ pre) ∨
    (0x0A#8 ∉ bs ∧ (readLine allowBom enc bs).2 = []) := by
  have := lineBytes_rest allowBom bs 0 false
  unfold readLine
  simp only
  split <;> exact this

end Dxf
