import Verif.Spec.Layout
import Verif.Lemmas.TextCodec

/-! Reading text files in different layouts. -/

namespace Dxf

/-! ### UTF-8 -/

theorem Char.toNat_ofNat' {n : Nat} (h : n < 0xD800 ∨ 0xDFFF < n ∧ n < 0x110000) :
    (Char.ofNat n).toNat = n := by
  rw [Char.ofNat, dif_pos (show n.isValidChar from h)]
  rfl

theorem byte_ofNat {b : Byte} {n : Nat} (h : n = b.toNat) : byte n = b := by
  subst h
  exact BitVec.eq_of_toNat_eq (by rw [byte_toNat b.isLt])

/-- UTF-8 is decoded as it is encoded. -/
theorem utf8Decode_sound : ∀ (n : Nat) (bs : List Byte), bs.length ≤ n → ∀ s,
    utf8Decode bs = some s → utf8Encode s = bs := by
  intro n
  induction n with
  | zero =>
    intro bs hn s h
    cases List.eq_nil_of_length_eq_zero (Nat.le_zero.mp hn)
    cases (show some [] = some s from h)
    rfl
  | succ n ih =>
    intro bs hn s h
    match bs, hn, h with
    | [], _, h =>
      cases (show some [] = some s from h)
      rfl
    | b0 :: r0, hn, h =>
      rw [utf8Decode.eq_def] at h
      dsimp only at h
      have hb0 := b0.isLt
      rw [List.length_cons] at hn
      split at h
      · rename_i h0
        obtain ⟨s', h1, rfl⟩ := Option.map_eq_some_iff.mp h
        rw [utf8Encode_cons, ih r0 (by omega) s' h1]
        have e : (Char.ofNat b0.toNat).toNat = b0.toNat := Char.toNat_ofNat' (by omega)
        unfold utf8EncodeChar
        dsimp only
        rw [e, if_pos h0, byte_ofNat rfl]
        rfl
      · split at h
        · cases h
        · match r0, hn, h with
          | [], _, h => cases h
          | b1 :: r1, hn, h =>
            dsimp only at h
            have hb1 := b1.isLt
            rw [List.length_cons] at hn
            split at h
            · cases h
            · rename_i hc1
              have hc1 : 0x80 ≤ b1.toNat ∧ b1.toNat < 0xC0 := by
                simpa [isCont] using hc1
              split at h
              · obtain ⟨s', h1, rfl⟩ := Option.map_eq_some_iff.mp h
                rw [utf8Encode_cons, ih r1 (by omega) s' h1]
                unfold utf8EncodeChar
                dsimp only
                rw [Char.toNat_ofNat' (by omega), if_neg (by omega), if_pos (by omega),
                  byte_ofNat (b := b0) (by omega), byte_ofNat (b := b1) (by omega)]
                rfl
              · match r1, hn, h with
                | [], _, h => cases h
                | b2 :: r2, hn, h =>
                  dsimp only at h
                  have hb2 := b2.isLt
                  rw [List.length_cons] at hn
                  split at h
                  · cases h
                  · rename_i hc2
                    have hc2 : 0x80 ≤ b2.toNat ∧ b2.toNat < 0xC0 := by
                      simpa [isCont] using hc2
                    split at h
                    · split at h
                      · cases h
                      · rename_i hv
                        obtain ⟨s', h1, rfl⟩ := Option.map_eq_some_iff.mp h
                        rw [utf8Encode_cons, ih r2 (by omega) s' h1]
                        unfold utf8EncodeChar
                        dsimp only
                        rw [Char.toNat_ofNat' (by omega), if_neg (by omega), if_neg (by omega),
                          if_pos (by omega),
                          byte_ofNat (b := b0) (by omega), byte_ofNat (b := b1) (by omega),
                          byte_ofNat (b := b2) (by omega)]
                        rfl
                    · match r2, hn, h with
                      | [], _, h => cases h
                      | b3 :: r3, hn, h =>
                        dsimp only at h
                        have hb3 := b3.isLt
                        rw [List.length_cons] at hn
                        split at h
                        · cases h
                        · rename_i hc3
                          have hc3 : 0x80 ≤ b3.toNat ∧ b3.toNat < 0xC0 := by
                            simpa [isCont] using hc3
                          split at h
                          · split at h
                            · cases h
                            · rename_i hv
                              obtain ⟨s', h1, rfl⟩ := Option.map_eq_some_iff.mp h
                              rw [utf8Encode_cons, ih r3 (by omega) s' h1]
                              unfold utf8EncodeChar
                              dsimp only
                              rw [Char.toNat_ofNat' (by omega), if_neg (by omega), if_neg (by omega),
                                if_neg (by omega),
                                byte_ofNat (b := b0) (by omega), byte_ofNat (b := b1) (by omega),
                                byte_ofNat (b := b2) (by omega), byte_ofNat (b := b3) (by omega)]
                              rfl
                          · cases h

theorem utf8EncodeChar_last {c : Char} {x : List Byte} (h : utf8EncodeChar c = x ++ [0x0D#8]) :
    c = '\r' := by
  have hv : c.toNat < 0x110000 := by
    rcases c.valid with h | h
    · have : c.toNat < 0xD800 := h
      omega
    · have : c.toNat < 0x110000 := h.2
      omega
  unfold utf8EncodeChar at h
  dsimp only at h
  have hl : ∀ (y : List Byte) (m : Nat), m < 256 → y ++ [byte m] = x ++ [0x0D#8] → m = 0x0D := by
    intro y m hm he
    have := (List.append_inj' he rfl).2
    have := congrArg BitVec.toNat (List.cons.inj this).1
    rwa [byte_toNat hm] at this
  split at h
  · have := hl [] _ (by omega) h
    exact Char.ext (UInt32.toNat_inj.mp this)
  · split at h
    · have := hl [_] _ (by omega) h
      omega
    · split at h
      · have := hl [_, _] _ (by omega) h
        omega
      · have := hl [_, _, _] _ (by omega) h
        omega

theorem utf8Decode_last {bs : List Byte} {s : Str} (h : utf8Decode bs = some s)
    (hs : s.getLast? = some '\r') : bs.getLast? = some 0x0D#8 := by
  obtain ⟨t, rfl⟩ : ∃ t, s = t ++ ['\r'] := by
    rw [List.getLast?_eq_some_iff] at hs
    exact hs
  rw [← utf8Decode_sound _ bs (Nat.le_refl _) _ h, utf8Encode_append]
  exact List.getLast?_concat

theorem utf8Decode_cr (bs : List Byte) :
    utf8Decode (bs ++ [0x0D#8]) = (utf8Decode bs).map (· ++ ['\r']) := by
  cases h : utf8Decode bs with
  | some s =>
    have := utf8Decode_sound _ bs (Nat.le_refl _) _ h
    rw [← this, show utf8Encode s ++ [0x0D#8] = utf8Encode (s ++ ['\r']) from
      (utf8Encode_append s ['\r']).symm, utf8Decode_encode]
    rfl
  | none =>
    cases h' : utf8Decode (bs ++ [0x0D#8]) with
    | none => rfl
    | some s' =>
      have e := utf8Decode_sound _ _ (Nat.le_refl _) _ h'
      rcases List.eq_nil_or_concat s' with rfl | ⟨t, c, rfl⟩
      · exact absurd e.symm (by simp [utf8Encode])
      · rw [List.concat_eq_append, utf8Encode_append] at e
        have hne : utf8Encode [c] ≠ [] := by
          obtain ⟨b, r, hc, -⟩ := utf8EncodeChar_head c
          simp [utf8Encode, hc]
        have he : utf8Encode [c] = utf8EncodeChar c := by simp [utf8Encode]
        rcases List.eq_nil_or_concat (utf8Encode [c]) with h0 | ⟨x, y, hxy⟩
        · exact absurd h0 hne
        · rw [List.concat_eq_append] at hxy
          rw [hxy, ← List.append_assoc] at e
          obtain ⟨e1, e2⟩ := List.append_inj' e rfl
          cases (List.cons.inj e2).1
          rw [he] at hxy
          cases utf8EncodeChar_last hxy
          have hx : x = [] := by
            have : utf8EncodeChar '\r' = [0x0D#8] := by decide
            rw [this] at hxy
            have := congrArg List.length hxy
            simp at this
            exact this
          rw [hx, List.append_nil] at e1
          rw [← e1, utf8Decode_encode] at h
          cases h

/-! ### Lines -/

/-- What `read_line` makes of the bytes of a line. -/
def lineResult (enc : Enc) (v : List Byte) : Except DxfErr Str :=
  match decode enc v with
  | some s => .ok s
  | none => .error .malformedString

theorem lineBytes_line (allowBom : Bool) {x rest : List Byte}
    (hx : x = 0x0A#8 :: rest ∨ x = [] ∧ rest = []) : ∀ (l : List Byte) (i : Nat) (skip : Bool),
    0x0A#8 ∉ l → (allowBom = true → i = 0 → l.head? ≠ some 0xEF#8) → (skip = true → 3 ≤ i) →
    lineBytes allowBom i skip (l ++ x) = (l, rest) := by
  intro l
  induction l with
  | nil =>
    intro i skip _ _ _
    rcases hx with rfl | ⟨rfl, rfl⟩
    · rw [List.nil_append, lineBytes, if_neg (by simp), if_neg (by simp), if_pos rfl]
    · rw [List.nil_append, lineBytes]
  | cons b bs ih =>
    intro i skip hl hb hs
    rw [List.cons_append, lineBytes]
    have hb0 : b ≠ 0x0A#8 := fun h => hl (by rw [h]; exact List.mem_cons_self)
    rw [if_neg, if_neg, if_neg hb0]
    · simp only
      rw [ih (i + 1) skip (fun h => hl (List.mem_cons_of_mem _ h)) (by omega)
        (fun h => Nat.le_succ_of_le (hs h))]
    · rintro ⟨h1, h2⟩
      have := hs h2
      omega
    · rintro ⟨h1, h2, h3⟩
      exact hb h3 h1 (by rw [h2]; rfl)

/-- The end of a line: a line end, or the end of the file. -/
def EndsLine (e rest : List Byte) : Prop := LineEnd e ∨ e = [] ∧ rest = []

theorem readLine_ended {allowBom : Bool} {enc : Enc} {b v e rest : List Byte} (hm : Mark b)
    (hb : b ≠ [] → allowBom = true)
    (hlf : 0x0A#8 ∉ v) (hef : allowBom = true → v.head? ≠ some 0xEF#8)
    (hcr : decode enc (v ++ [0x0D#8]) = (decode enc v).map (· ++ ['\r']))
    (hlast : ∀ s, decode enc v = some s → s.getLast? ≠ some '\r') (he : EndsLine e rest) :
    readLine allowBom enc (b ++ (v ++ (e ++ rest))) = (lineResult enc v, rest) := by
  have key : lineBytes allowBom 0 false (b ++ (v ++ (e ++ rest))) = (v, rest) ∨
      lineBytes allowBom 0 false (b ++ (v ++ (e ++ rest))) = (v ++ [0x0D#8], rest) := by
    have hlf' : 0x0A#8 ∉ v ++ [0x0D#8] := by
      intro h
      rcases List.mem_append.mp h with h | h
      · exact hlf h
      · revert h
        decide
    have hef' : allowBom = true → (v ++ [0x0D#8]).head? ≠ some 0xEF#8 := by
      intro h
      cases v with
      | nil => decide
      | cons x y => exact hef h
    have main : ∀ i skip, (skip = true → 3 ≤ i) →
        lineBytes allowBom i skip (v ++ (e ++ rest)) = (v, rest) ∨
        lineBytes allowBom i skip (v ++ (e ++ rest)) = (v ++ [0x0D#8], rest) := by
      intro i skip hs
      rcases he with (rfl | rfl) | ⟨rfl, rfl⟩
      · exact .inl (lineBytes_line _ (.inl rfl) v i skip hlf (fun h _ => hef h) hs)
      · refine .inr ?_
        have := lineBytes_line allowBom (x := 0x0A#8 :: rest) (.inl rfl) (v ++ [0x0D#8]) i skip hlf'
          (fun h _ => hef' h) hs
        rwa [List.append_assoc] at this
      · exact .inl (lineBytes_line _ (.inr ⟨rfl, rfl⟩) v i skip hlf (fun h _ => hef h) hs)
    rcases hm with rfl | rfl
    · exact main 0 false (fun h => nomatch h)
    · have ha := hb (List.cons_ne_nil _ _)
      subst ha
      exact main 3 true (fun _ => Nat.le_refl 3)
  unfold readLine lineResult
  rcases key with h | h
  · rw [h]
    dsimp only
    cases hd : decode enc v with
    | none => rfl
    | some s =>
      dsimp only
      rw [stripCr, if_neg (hlast s hd)]
  · rw [h]
    dsimp only
    rw [hcr]
    cases hd : decode enc v with
    | none => rfl
    | some s =>
      dsimp only [Option.map_some]
      rw [stripCr_cr]

/-! ### Text -/

theorem win1252_last : ∀ n < 256, win1252Char (byte n) = '\r' → n = 0x0D := by
  decide +kernel

theorem decode_text (enc : Enc) {v : List Byte} (h : TextLine v) :
    (decode enc (v ++ [0x0D#8]) = (decode enc v).map (· ++ ['\r'])) ∧
    ∀ s, decode enc v = some s → s.getLast? ≠ some '\r' := by
  by_cases hb : ∃ r, v = 0xEF#8 :: 0xBB#8 :: 0xBF#8 :: r
  · obtain ⟨r, rfl⟩ := hb
    refine ⟨utf8Decode_cr r, fun s hs hl => h.noCr ?_⟩
    have := utf8Decode_last (show utf8Decode r = some s from hs) hl
    cases r with
    | nil => cases this
    | cons x y =>
      rw [List.getLast?_cons_cons, List.getLast?_cons_cons, List.getLast?_cons_cons]
      exact this
  · have h1 : ∀ r, v ≠ 0xEF#8 :: 0xBB#8 :: 0xBF#8 :: r := fun r e => hb ⟨r, e⟩
    have h2 : ∀ r, v ≠ 0xFE#8 :: 0xFF#8 :: r := fun r e => h.noBe ⟨r, e.symm⟩
    have h3 : ∀ r, v ≠ 0xFF#8 :: 0xFE#8 :: r := fun r e => h.noLe ⟨r, e.symm⟩
    have g1 : ∀ r, v ++ [0x0D#8] ≠ 0xEF#8 :: 0xBB#8 :: 0xBF#8 :: r := by
      intro r e
      match v, e with
      | [], e => simp at e
      | [_], e => simp at e
      | [_, _], e => simp at e
      | a :: b :: c :: v, e =>
        simp only [List.cons_append, List.cons.injEq] at e
        obtain ⟨rfl, rfl, rfl, -⟩ := e
        exact h1 _ rfl
    have g2 : ∀ r, v ++ [0x0D#8] ≠ 0xFE#8 :: 0xFF#8 :: r := by
      intro r e
      match v, e with
      | [], e => simp at e
      | [_], e => simp at e
      | a :: b :: v, e =>
        simp only [List.cons_append, List.cons.injEq] at e
        obtain ⟨rfl, rfl, -⟩ := e
        exact h2 _ rfl
    have g3 : ∀ r, v ++ [0x0D#8] ≠ 0xFF#8 :: 0xFE#8 :: r := by
      intro r e
      match v, e with
      | [], e => simp at e
      | [_], e => simp at e
      | a :: b :: v, e =>
        simp only [List.cons_append, List.cons.injEq] at e
        obtain ⟨rfl, rfl, -⟩ := e
        exact h3 _ rfl
    rw [decode_no_bom enc _ h1 h2 h3, decode_no_bom enc _ g1 g2 g3]
    cases enc with
    | win1252 =>
      dsimp only
      constructor
      · rw [List.map_append]
        rfl
      · intro s hs hl
        cases hs
        rw [List.getLast?_map, Option.map_eq_some_iff] at hl
        obtain ⟨x, hx, hw⟩ := hl
        apply h.noCr
        rw [hx]
        have hx' : byte x.toNat = x := byte_ofNat rfl
        have := win1252_last x.toNat x.isLt (by rw [hx']; exact hw)
        rw [this] at hx'
        exact congrArg some hx'.symm
    | utf8 =>
      exact ⟨utf8Decode_cr v, fun s hs hl => h.noCr (utf8Decode_last hs hl)⟩

theorem readLine_text {enc : Enc} {v e rest : List Byte} (h : TextLine v) (he : EndsLine e rest) :
    readLine false enc (v ++ (e ++ rest)) = (lineResult enc v, rest) :=
  readLine_ended (b := []) (.inl rfl) (fun h => absurd rfl h) h.noLf (fun h => nomatch h)
    (decode_text enc h).1 (decode_text enc h).2 he

/-! ### Spaces -/

/-- The characters of a line of ASCII. -/
def txt (v : List Byte) : Str := v.map fun b => Char.ofNat b.toNat

theorem txt_append (a b : List Byte) : txt (a ++ b) = txt a ++ txt b := List.map_append

/-- Bytes of a line that may be padded. -/
def Inked (b : Byte) : Prop := b.toNat = 0x20 ∨ b.toNat = 0x09 ∨ 0x21 ≤ b.toNat ∧ b.toNat < 0x7F

theorem Inked.lt {b : Byte} (h : Inked b) : b.toNat < 128 := by
  rcases h with h | h | h <;> omega

theorem txt_ascii {v : List Byte} (h : ∀ b ∈ v, Inked b) : ∀ c ∈ txt v, c.toNat < 128 := by
  intro c hc
  obtain ⟨b, hb, rfl⟩ := List.mem_map.mp hc
  have := (h b hb).lt
  rw [Char.toNat_ofNat' (by omega)]
  exact this

theorem encode_txt {v : List Byte} (h : ∀ b ∈ v, Inked b) : utf8Encode (txt v) = v := by
  rw [utf8Encode_ascii (txt_ascii h), txt, List.map_map]
  conv => rhs; rw [← List.map_id v]
  apply List.map_congr_left
  intro b hb
  have := (h b hb).lt
  exact byte_ofNat (Char.toNat_ofNat' (by omega))

theorem decode_inked (enc : Enc) {v : List Byte} (h : ∀ b ∈ v, Inked b) :
    decode enc v = some (txt v) := by
  have := decode_ascii enc (txt_ascii h)
  rwa [encode_txt h] at this

theorem decode_inked_cr (enc : Enc) {v : List Byte} (h : ∀ b ∈ v, Inked b) :
    decode enc (v ++ [0x0D#8]) = some (txt v ++ ['\r']) := by
  have := decode_ascii enc (append_cr_ascii (txt_ascii h))
  rwa [utf8Encode_append, encode_txt h] at this

theorem readLine_inked {allowBom : Bool} {enc : Enc} {b v e rest : List Byte} (hm : Mark b)
    (hb : b ≠ [] → allowBom = true) (h : ∀ b ∈ v, Inked b) (he : EndsLine e rest) :
    readLine allowBom enc (b ++ (v ++ (e ++ rest))) = (.ok (txt v), rest) := by
  rw [readLine_ended hm hb ?_ ?_ ?_ ?_ he, lineResult, decode_inked enc h]
  · intro hx
    rcases h _ hx with h | h | h
    · exact absurd h (by decide)
    · exact absurd h (by decide)
    · exact absurd h.1 (by decide)
  · intro _ hx
    have := (h _ (List.mem_of_mem_head? hx)).lt
    exact absurd this (by decide)
  · rw [decode_inked enc h, decode_inked_cr enc h]
    rfl
  · intro s hs hl
    rw [decode_inked enc h] at hs
    cases hs
    obtain ⟨x, hx, hc⟩ := List.mem_map.mp (List.mem_of_getLast? hl)
    have hx' := h x hx
    have := congrArg Char.toNat hc
    rw [Char.toNat_ofNat' (by have := hx'.lt; omega), show '\r'.toNat = 13 from rfl] at this
    rcases hx' with h | h | h <;> omega

theorem readLine_inked' {allowBom : Bool} {enc : Enc} {v e rest : List Byte}
    (h : ∀ b ∈ v, Inked b) (he : EndsLine e rest) :
    readLine allowBom enc (v ++ (e ++ rest)) = (.ok (txt v), rest) :=
  readLine_inked (b := []) (.inl rfl) (fun h => absurd rfl h) h he

theorem Blank.inked {b : Byte} (h : Blank b) : Inked b := by
  rcases h with rfl | rfl
  · exact .inl rfl
  · exact .inr (.inl rfl)

theorem Blank.ws {b : Byte} (h : Blank b) : isWhitespace (Char.ofNat b.toNat) = true := by
  rcases h with rfl | rfl <;> decide

theorem ink_not_ws : ∀ n < 0x7F, 0x21 ≤ n → isWhitespace (Char.ofNat n) = false := by
  decide +kernel

theorem Repadded.spec {a b : List Byte} (h : Repadded a b) :
    (∀ x ∈ a, Inked x) ∧ (∀ x ∈ b, Inked x) ∧ trim (txt a) = trim (txt b) := by
  obtain ⟨l, l', t, r, r', rfl, rfl, hb, ht⟩ := h
  have hl : ∀ x ∈ l, Blank x := fun x hx => hb x (by simp [hx])
  have hl' : ∀ x ∈ l', Blank x := fun x hx => hb x (by simp [hx])
  have hr : ∀ x ∈ r, Blank x := fun x hx => hb x (by simp [hx])
  have hr' : ∀ x ∈ r', Blank x := fun x hx => hb x (by simp [hx])
  have ink : ∀ {l r : List Byte}, (∀ x ∈ l, Blank x) → (∀ x ∈ r, Blank x) →
      ∀ x ∈ l ++ t ++ r, Inked x := by
    intro l r hl hr x hx
    rcases List.mem_append.mp hx with hx | hx
    · rcases List.mem_append.mp hx with hx | hx
      · exact (hl x hx).inked
      · exact .inr (.inr (ht x hx))
    · exact (hr x hx).inked
  have tr : ∀ {l r : List Byte}, (∀ x ∈ l, Blank x) → (∀ x ∈ r, Blank x) →
      trim (txt (l ++ t ++ r)) = txt t := by
    intro l r hl hr
    rw [txt_append, txt_append]
    apply trim_pad
    · intro c hc
      obtain ⟨x, hx, rfl⟩ := List.mem_map.mp hc
      exact (hl x hx).ws
    · intro c hc
      obtain ⟨x, hx, rfl⟩ := List.mem_map.mp hc
      exact (hr x hx).ws
    · intro c hc
      obtain ⟨x, hx, rfl⟩ := List.mem_map.mp hc
      exact ink_not_ws _ (ht x hx).2 (ht x hx).1
  exact ⟨ink hl hr, ink hl' hr', (tr hl hr).trans (tr hl' hr').symm⟩

theorem txt_numeral (n : Int) : txt (numeral n) = fmtInt n := by
  unfold txt numeral
  rw [List.map_map]
  conv => rhs; rw [← List.map_id (fmtInt n)]
  apply List.map_congr_left
  intro c hc
  have := (fmtInt_range n c hc).2
  dsimp only [Function.comp]
  rw [byte_toNat (by omega)]
  exact Char.ofNat_toNat c

/-- What a line with the numeral of a code says. -/
theorem code_line {n : Int} {c : List Byte} (h : Repadded (numeral n) c) :
    (∀ x ∈ c, Inked x) ∧ trim (txt c) = fmtInt n := by
  obtain ⟨-, h2, h3⟩ := h.spec
  refine ⟨h2, ?_⟩
  rw [← h3, txt_numeral]
  exact trim_self (fmtInt_no_ws n)

/-! ### Pairs -/

/-- What the reader gives for a code and the line after it. -/
def itemOf (n : Int) (off : Nat) (enc : Enc) (res : Except DxfErr Str) : Item :=
  match res with
  | .error e => some (.error e)
  | .ok line =>
    match ExpectedType.new n with
    | none => some (.error (.unexpectedEnumValue (off + 1)))
    | some ty =>
      match TextIter.parseValue enc ty line (off + 1) with
      | .error e => some (.error e)
      | .ok v => some (.ok ⟨n, v, off⟩)

theorem ofInt_toInt_i32 {n : Int} (h0 : -2 ^ 31 ≤ n) (h1 : n < 2 ^ 31) :
    (BitVec.ofInt 32 n).toInt = n := by
  rw [BitVec.toInt_ofInt]
  simp only [Int.bmod]
  omega

theorem readValue_line {n : Int} (h0 : -2 ^ 31 ≤ n) (h1 : n < 2 ^ 31) {enc : Enc}
    {bs rest : List Byte} {res : Except DxfErr Str} (h : readLine false enc bs = (res, rest))
    (fl : Option Str) (off : Nat) :
    TextIter.readValue ⟨bs, enc, fl, off⟩ (BitVec.ofInt 32 n) =
      (itemOf n off enc res, ⟨rest, enc, fl, off + 1⟩) := by
  unfold TextIter.readValue itemOf
  dsimp only
  rw [h, ofInt_toInt_i32 h0 h1]
  dsimp only
  cases res with
  | error e => rfl
  | ok line =>
    cases ExpectedType.new n with
    | none => rfl
    | some ty =>
      dsimp only
      cases TextIter.parseValue enc ty line (off + 1) <;> rfl

theorem next_line {n : Int} (h0 : -2 ^ 31 ≤ n) (h1 : n < 2 ^ 31) {enc : Enc}
    {bs bs' rest : List Byte} {res : Except DxfErr Str} {l : Str} (hl : trim l = fmtInt n)
    (h : readLine true .win1252 bs = (.ok l, bs'))
    (h' : readLine false enc bs' = (res, rest)) (off : Nat) :
    TextIter.next ⟨bs, enc, none, off⟩ =
      (itemOf n (off + 1) enc res, ⟨rest, enc, none, off + 2⟩) := by
  unfold TextIter.next TextIter.readCode
  dsimp only
  rw [h]
  dsimp only
  rw [hl, if_neg (fmtInt_ne_nil _)]
  have := parseI32_fmt (BitVec.ofInt 32 n) (off + 1)
  rw [ofInt_toInt_i32 h0 h1] at this
  rw [this]
  exact readValue_line h0 h1 h' none (off + 1)

theorem next_first {n : Int} (h0 : -2 ^ 31 ≤ n) (h1 : n < 2 ^ 31) {enc : Enc}
    {bs rest : List Byte} {res : Except DxfErr Str} {l : Str} (hl : trim l = fmtInt n)
    (h : readLine false enc bs = (res, rest)) (off : Nat) :
    TextIter.next ⟨bs, enc, some l, off⟩ =
      (itemOf n off enc res, ⟨rest, enc, none, off + 1⟩) := by
  unfold TextIter.next TextIter.readCode
  dsimp only
  rw [hl, if_neg (fmtInt_ne_nil _)]
  have := parseI32_fmt (BitVec.ofInt 32 n) off
  rw [ofInt_toInt_i32 h0 h1] at this
  rw [this]
  exact readValue_line h0 h1 h none off

theorem parseValue_trim {enc : Enc} {ty : ExpectedType} (h1 : ty ≠ .str) (h2 : ty ≠ .binary)
    {a b : Str} (h : trim a = trim b) (off : Nat) :
    TextIter.parseValue enc ty a off = TextIter.parseValue enc ty b off := by
  cases ty with
  | str => exact absurd rfl h1
  | binary => exact absurd rfl h2
  | _ => simp only [TextIter.parseValue, parseI16, parseI32, parseI64, parseF64, h]

/-- The same value line in two layouts. -/
theorem value_line {n : Int} {v v' : List Byte} (h : SameLine n v v') (enc : Enc) :
    ∃ res res', (∀ w rest, EndsLine w rest → readLine false enc (v ++ (w ++ rest)) = (res, rest)) ∧
      (∀ w rest, EndsLine w rest → readLine false enc (v' ++ (w ++ rest)) = (res', rest)) ∧
      ∀ off, itemOf n off enc res = itemOf n off enc res' := by
  rcases h with ⟨h, rfl⟩ | ⟨⟨ty, hty, hs, hb⟩, h⟩
  · exact ⟨_, _, fun w rest hw => readLine_text h hw, fun w rest hw => readLine_text h hw,
      fun _ => rfl⟩
  · obtain ⟨h1, h2, h3⟩ := h.spec
    refine ⟨_, _, fun w rest hw => readLine_inked' h1 hw,
      fun w rest hw => readLine_inked' h2 hw,
      fun off => ?_⟩
    unfold itemOf
    dsimp only
    rw [hty]
    dsimp only
    rw [parseValue_trim hs hb h3]

theorem items_done (f : Nat) (enc : Enc) (off : Nat) : TextIter.items f ⟨[], enc, none, off⟩ = [] := by
  cases f <;> rfl

theorem items_go {f : Nat} {t : TextIter} (h : t.done = false) :
    TextIter.items (f + 1) t = t.next.1 :: TextIter.items f t.next.2 := by
  rw [TextIter.items, h]
  rfl

theorem LineEnd.pos {e : List Byte} (h : LineEnd e) : 0 < e.length := by
  rcases h with rfl | rfl <;> decide

theorem not_done {bs : List Byte} (h : 0 < bs.length) (enc : Enc) (off : Nat) :
    TextIter.done ⟨bs, enc, none, off⟩ = false := by
  cases bs with
  | nil => exact absurd h (Nat.lt_irrefl 0)
  | cons b bs => rfl

theorem items_relaid {m m' : List Byte} (h : Relaid m m') (enc : Enc) : ∀ (off f f' : Nat),
    m.length < f → m'.length < f' →
    TextIter.items f ⟨m, enc, none, off⟩ = TextIter.items f' ⟨m', enc, none, off⟩ := by
  induction h with
  | nil =>
    intro off f f' _ _
    rw [items_done, items_done]
  | @pair n c c' v v' e e' w w' rest rest' h0 h1 hc hc' hv he he' hw hw' _ ih =>
    intro off f f' hf hf'
    obtain ⟨res, res', r1, r2, hi⟩ := value_line hv enc
    obtain ⟨k1, k2⟩ := code_line hc
    obtain ⟨k1', k2'⟩ := code_line hc'
    have p := he.pos
    have p' := he'.pos
    simp only [List.length_append] at hf hf'
    obtain ⟨f, rfl⟩ : ∃ k, f = k + 1 := ⟨f - 1, by omega⟩
    obtain ⟨f', rfl⟩ : ∃ k, f' = k + 1 := ⟨f' - 1, by omega⟩
    rw [items_go (not_done (by simp only [List.length_append]; omega) enc off),
      items_go (not_done (by simp only [List.length_append]; omega) enc off),
      next_line h0 h1 k2
        (readLine_inked' k1 (.inl he)) (r1 _ _ (.inl hw)),
      next_line h0 h1 k2'
        (readLine_inked' k1' (.inl he'))
        (r2 _ _ (.inl hw')), hi]
    dsimp only
    rw [ih (off + 2) f f' (by omega) (by omega)]
  | @last n c c' v v' e e' w w' h0 h1 hc hc' hv he he' hw hw' =>
    intro off f f' hf hf'
    obtain ⟨res, res', r1, r2, hi⟩ := value_line hv enc
    obtain ⟨k1, k2⟩ := code_line hc
    obtain ⟨k1', k2'⟩ := code_line hc'
    have p := he.pos
    have p' := he'.pos
    simp only [List.length_append] at hf hf'
    obtain ⟨f, rfl⟩ : ∃ k, f = k + 1 := ⟨f - 1, by omega⟩
    obtain ⟨f', rfl⟩ : ∃ k, f' = k + 1 := ⟨f' - 1, by omega⟩
    rw [items_go (not_done (by simp only [List.length_append]; omega) enc off),
      items_go (not_done (by simp only [List.length_append]; omega) enc off),
      next_line h0 h1 k2
        (readLine_inked' k1 (.inl he))
        (r1 _ _ (hw.imp id fun h => ⟨h, rfl⟩)),
      next_line h0 h1 k2'
        (readLine_inked' k1' (.inl he'))
        (r2 _ _ (hw'.imp id fun h => ⟨h, rfl⟩)), hi]
    dsimp only
    rw [items_done, items_done]

/-! ### Files -/

theorem code_not_word {n : Int} {l : Str} (hl : trim l = fmtInt n) {t : Str}
    (ht : trim t = t) (h : ∃ x ∈ t, 57 < x.toNat) : l ≠ t := by
  rintro rfl
  obtain ⟨x, hx, h57⟩ := h
  rw [ht] at hl
  rw [hl] at hx
  have := fmtInt_chars n x hx
  omega

/-- Reading a file that begins with a code. -/
theorem fileItems_first {n : Int} {b c e rest : List Byte} (enc : Enc) (hm : Mark b)
    (hc : Repadded (numeral n) c) (he : LineEnd e) :
    fileItems enc (b ++ (c ++ (e ++ rest))) =
      .ok (some (TextIter.all ⟨rest, enc, some (txt c), 1⟩,
        TextIter.all ⟨rest, .utf8, some (txt c), 1⟩)) := by
  obtain ⟨k1, k2⟩ := code_line hc
  unfold fileItems
  rw [readLine_inked hm (fun _ => rfl) k1 (.inl he)]
  dsimp only
  rw [if_neg (code_not_word k2 (by decide) (by decide))]
  unfold newPairIter
  rw [if_neg (code_not_word k2 (by decide) (by decide))]
  rfl

/-- Two files in different layouts give the same results. -/
theorem fileItems_relaid {m m' b b' : List Byte} (h : Relaid m m') (hb : Mark b)
    (hb' : Mark b') (enc : Enc) :
    ∃ main alt, fileItems enc (b ++ m) = .ok (some (main, alt)) ∧
      fileItems enc (b' ++ m') = .ok (some (main, alt)) := by
  have all_eq : ∀ {n : Int} {c c' v v' w w' rest rest' : List Byte}, -2 ^ 31 ≤ n → n < 2 ^ 31 →
      Repadded (numeral n) c → Repadded (numeral n) c' → SameLine n v v' →
      EndsLine w rest → EndsLine w' rest' → Relaid rest rest' → ∀ enc,
      TextIter.all ⟨v ++ (w ++ rest), enc, some (txt c), 1⟩ =
        TextIter.all ⟨v' ++ (w' ++ rest'), enc, some (txt c'), 1⟩ := by
    intro n c c' v v' w w' rest rest' h0 h1 hc hc' hv hw hw' hr enc
    obtain ⟨res, res', r1, r2, hi⟩ := value_line hv enc
    have k2 := (code_line hc).2
    have k2' := (code_line hc').2
    unfold TextIter.all
    rw [items_go (by simp [TextIter.done]), items_go (by simp [TextIter.done]),
      next_first h0 h1 k2 (r1 _ _ hw), next_first h0 h1 k2' (r2 _ _ hw'), hi]
    dsimp only
    by_cases hlt : rest.length < (v ++ (w ++ rest)).length ∧
        rest'.length < (v' ++ (w' ++ rest')).length
    · rw [items_relaid hr enc 2 _ _ hlt.1 hlt.2]
    · have hrr : rest = [] ∧ rest' = [] := by
        simp only [List.length_append] at hlt
        have hz : rest = [] ∨ rest' = [] := by
          rcases hw with hw | ⟨-, hw⟩
          · rcases hw' with hw' | ⟨-, hw'⟩
            · have := hw.pos
              have := hw'.pos
              omega
            · exact .inr hw'
          · exact .inl hw
        have nil_iff : rest = [] ↔ rest' = [] := by
          have ne : ∀ {a e x : List Byte}, LineEnd e → a ++ (e ++ x) ≠ [] := by
            intro a e x he h
            have := congrArg List.length h
            have := he.pos
            simp only [List.length_append, List.length_nil] at *
            omega
          cases hr with
          | nil => exact Iff.rfl
          | pair _ _ _ _ _ he he' =>
            exact ⟨fun h => absurd h (ne he), fun h => absurd h (ne he')⟩
          | last _ _ _ _ _ he he' =>
            exact ⟨fun h => absurd h (ne he), fun h => absurd h (ne he')⟩
        rcases hz with h | h
        · exact ⟨h, nil_iff.mp h⟩
        · exact ⟨nil_iff.mpr h, h⟩
      obtain ⟨rfl, rfl⟩ := hrr
      rw [items_done, items_done]
  cases h with
  | nil =>
    have e : ∀ {b}, Mark b → fileItems enc (b ++ []) = fileItems enc [] := by
      rintro b (rfl | rfl)
      · rfl
      · rfl
    rw [e hb, e hb']
    cases enc
    · exact ⟨_, _, rfl, rfl⟩
    · exact ⟨_, _, rfl, rfl⟩
  | @pair n c c' v v' e e' w w' rest rest' h0 h1 hc hc' hv he he' hw hw' hr =>
    refine ⟨_, _, fileItems_first enc hb hc he, ?_⟩
    rw [fileItems_first enc hb' hc' he', all_eq h0 h1 hc hc' hv (.inl hw) (.inl hw') hr,
      all_eq h0 h1 hc hc' hv (.inl hw) (.inl hw') hr]
  | @last n c c' v v' e e' w w' h0 h1 hc hc' hv he he' hw hw' =>
    refine ⟨_, _, fileItems_first enc hb hc he, ?_⟩
    rw [fileItems_first enc hb' hc' he',
      all_eq h0 h1 hc hc' hv (hw.imp id fun h => ⟨h, rfl⟩) (hw'.imp id fun h => ⟨h, rfl⟩) .nil,
      all_eq h0 h1 hc hc' hv (hw.imp id fun h => ⟨h, rfl⟩) (hw'.imp id fun h => ⟨h, rfl⟩) .nil]


/-! ### Saved files -/

/-- What `write_ascii_code_pair` would write with line feeds only. -/
def lfPair (old : Bool) (p : CodePair) : List Byte :=
  utf8Encode (codeText p.code) ++ ([0x0A#8] ++ (utf8Encode (valueLine old p.value) ++ [0x0A#8]))

theorem written_pair (old : Bool) (p : CodePair) (rest : List Byte) :
    writeAsciiPair old p ++ rest = utf8Encode (codeText p.code) ++ ([0x0D#8, 0x0A#8] ++
      (utf8Encode (valueLine old p.value) ++ ([0x0D#8, 0x0A#8] ++ rest))) := by
  rw [asciiPair_split, utf8Encode_append, utf8Encode_append]
  simp only [List.append_assoc]
  rfl

theorem utf8Encode_ge {s : Str} (h : ∀ c ∈ s, 32 ≤ c.toNat) : ∀ b ∈ utf8Encode s, 32 ≤ b.toNat := by
  intro b hb
  obtain ⟨c, hc, hb⟩ := List.mem_flatMap.mp hb
  have := h c hc
  rcases utf8EncodeChar_bytes c b hb with h | h <;> omega

theorem filter_of_ge {bs : List Byte} (h : ∀ b ∈ bs, 32 ≤ b.toNat) :
    bs.filter (· ≠ 0x0D#8) = bs := by
  apply List.filter_eq_self.mpr
  intro b hb
  have := h b hb
  apply decide_eq_true
  rintro rfl
  exact absurd this (by decide)

theorem filter_written (old : Bool) (ps : List CodePair) :
    (writeAscii old ps).filter (· ≠ 0x0D#8) = ps.flatMap (lfPair old) := by
  induction ps with
  | nil => rfl
  | cons p ps ih =>
    rw [writeAscii_cons, List.filter_append, ih, List.flatMap_cons]
    congr 1
    have := written_pair old p []
    rw [List.append_nil] at this
    rw [this]
    simp only [List.filter_append]
    rw [filter_of_ge (utf8Encode_ge fun c h => (codeText_chars p.code c h).1),
      filter_of_ge (utf8Encode_ge (valueLine_ge old p.value))]
    rfl

theorem codeText_repadded (n : Int) : Repadded (numeral n) (utf8Encode (codeText n)) := by
  refine ⟨[], List.replicate (3 - (fmtInt n).length) 0x20#8, numeral n, [], [], by simp, ?_, ?_, ?_⟩
  · rw [utf8Encode_ascii (fun c h => (codeText_chars n c h).2), codeText, padLeft, List.map_append,
      List.map_replicate, List.append_nil]
    rfl
  · intro x hx
    simp only [List.nil_append, List.append_nil] at hx
    exact .inl (List.eq_of_mem_replicate hx)
  · intro x hx
    obtain ⟨c, hc, rfl⟩ := List.mem_map.mp hx
    have := fmtInt_chars n c hc
    rw [byte_toNat (by omega)]
    omega

theorem textLine_valueLine (old : Bool) (v : CodePairValue) :
    TextLine (utf8Encode (valueLine old v)) where
  noLf := utf8Encode_no_lf (no_lf_of_ge (valueLine_ge old v))
  noCr := by
    intro h
    have := utf8Encode_ge (valueLine_ge old v) _ (List.mem_of_getLast? h)
    exact absurd this (by decide)
  noBe := by
    rintro ⟨r, h⟩
    exact utf8Encode_not_utf16 _ _ _ (by decide) r h.symm
  noLe := by
    rintro ⟨r, h⟩
    exact utf8Encode_not_utf16 _ _ _ (by decide) r h.symm

/-- A saved file and the same file without carriage returns. -/
theorem relaid_written (old : Bool) : ∀ (ps : List CodePair),
    (∀ p ∈ ps, -2 ^ 31 ≤ p.code ∧ p.code < 2 ^ 31) →
    Relaid (writeAscii old ps) ((writeAscii old ps).filter (· ≠ 0x0D#8)) := by
  intro ps h
  rw [filter_written]
  induction ps with
  | nil => exact .nil
  | cons p ps ih =>
    obtain ⟨h0, h1⟩ := h p List.mem_cons_self
    rw [writeAscii_cons, written_pair, List.flatMap_cons, lfPair]
    simp only [List.append_assoc]
    exact .pair h0 h1 (codeText_repadded _) (codeText_repadded _)
      (.inl ⟨textLine_valueLine old p.value, rfl⟩) (.inr rfl) (.inl rfl) (.inr rfl) (.inl rfl)
      (ih fun q hq => h q (List.mem_cons_of_mem _ hq))

end Dxf
