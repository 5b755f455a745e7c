import Verif.Spec.Io
import Verif.Lemmas.Bytes
import Verif.Lemmas.DxbFile
import Verif.Spec.DxbItems

/-! Lemmas about readers and writers. -/

namespace Dxf

/-! ### Reading -/

namespace Source

/-- What `Read::read` does to the bytes. -/
def Read (s : Source) : Except Fault (List Byte) × Source → Prop
  | (.ok [], s') => s.bytes = [] ∧ .failed ∉ s ∧ s' = []
  | (.ok (b :: bs), s') => s.bytes = b :: bs ++ s'.bytes ∧ (.failed ∈ s' ↔ .failed ∈ s) ∧
    (.interrupted ∈ s' → .interrupted ∈ s)
  | (.error .interrupted, s') => s.bytes = s'.bytes ∧ (.failed ∈ s' ↔ .failed ∈ s) ∧
    .interrupted ∈ s
  | (.error .failed, _) => .failed ∈ s

theorem read_bytes (n : Nat) (s : Source) : s.Read (s.read n) := by
  cases s with
  | nil => exact ⟨rfl, by simp, rfl⟩
  | cons a s =>
    cases a with
    | interrupted => exact ⟨rfl, by simp, List.mem_cons_self⟩
    | failed => exact List.mem_cons_self
    | data b bs =>
      change Read _ (match bs.drop n with
        | [] => (.ok (b :: bs), s)
        | c :: cs => (.ok (b :: bs.take n), .data c cs :: s))
      cases h : bs.drop n with
      | nil => exact ⟨rfl, by simp, fun h => List.mem_cons_of_mem _ h⟩
      | cons c cs =>
        refine ⟨?_, by simp, fun h => ?_⟩
        · change b :: bs ++ bytes s = b :: bs.take n ++ (c :: cs ++ bytes s)
          rw [← h, ← List.append_assoc, List.cons_append, List.cons_append, List.take_append_drop]
          rfl
        · rcases List.mem_cons.mp h with h | h
          · cases h
          · exact List.mem_cons_of_mem _ h

/-- What `next` does to the bytes. -/
def Next (s : Source) : Option (Except Fault Byte) × Source → Prop
  | (none, s') => s.bytes = [] ∧ .failed ∉ s ∧ s' = []
  | (some (.ok b), s') => s.bytes = b :: s'.bytes ∧ (.failed ∈ s' ↔ .failed ∈ s) ∧
    (.interrupted ∈ s' → .interrupted ∈ s)
  | (some (.error _), _) => .failed ∈ s

theorem nextByte_bytes (s : Source) : s.Next s.nextByte := by
  induction s with
  | nil => exact ⟨rfl, by simp, rfl⟩
  | cons a s ih =>
    cases a with
    | interrupted =>
      change Next _ (nextByte s)
      rcases hr : nextByte s with ⟨_ | _ | b, s'⟩
      · rw [hr] at ih
        exact ⟨ih.1, by simpa using ih.2.1, ih.2.2⟩
      · rw [hr] at ih
        exact List.mem_cons_of_mem _ ih
      · rw [hr] at ih
        exact ⟨ih.1, by simpa using ih.2.1, fun _ => List.mem_cons_self⟩
    | failed => exact List.mem_cons_self
    | data b bs =>
      cases bs with
      | nil => exact ⟨rfl, by simp, fun h => List.mem_cons_of_mem _ h⟩
      | cons c cs =>
        refine ⟨rfl, by simp, fun h => ?_⟩
        rcases List.mem_cons.mp h with h | h
        · cases h
        · exact List.mem_cons_of_mem _ h

theorem lineBytes_none {s s' : Source} (a : Bool) (i : Nat) (k : Bool)
    (h : s.nextByte = (none, s')) : s.lineBytes a i k = (.ok [], s') := by
  rw [lineBytes]
  split
  · rename_i h'
    cases h.symm.trans h'
    rfl
  · rename_i h'
    cases h.symm.trans h'
  · rename_i h'
    cases h.symm.trans h'

theorem lineBytes_error {s s' : Source} {e : Fault} (a : Bool) (i : Nat) (k : Bool)
    (h : s.nextByte = (some (.error e), s')) : s.lineBytes a i k = (.error .ioError, s') := by
  rw [lineBytes]
  split
  · rename_i h'
    cases h.symm.trans h'
  · rename_i h'
    cases h.symm.trans h'
    rfl
  · rename_i h'
    cases h.symm.trans h'

theorem lineBytes_ok {s s' : Source} {b : Byte} (a : Bool) (i : Nat) (k : Bool)
    (h : s.nextByte = (some (.ok b), s')) : s.lineBytes a i k =
      if i = 0 ∧ b = 0xEF#8 ∧ a then lineBytes a (i + 1) true s'
      else if ((i = 1 ∧ b = 0xBB#8) ∨ (i = 2 ∧ b = 0xBF#8)) ∧ k then lineBytes a (i + 1) k s'
      else if b = 0x0A#8 then (.ok [], s')
      else ((lineBytes a (i + 1) k s').1.map (b :: ·), (lineBytes a (i + 1) k s').2) := by
  rw [lineBytes]
  split
  · rename_i h'
    cases h.symm.trans h'
  · rename_i h'
    cases h.symm.trans h'
  · rename_i h'
    cases h.symm.trans h'
    rfl

/-- What reading a line does to the bytes. -/
def Line (a : Bool) (i : Nat) (k : Bool) (s : Source) : Except DxfErr (List Byte) × Source → Prop
  | (.error e, _) => e = .ioError ∧ .failed ∈ s
  | (.ok l, s') => l = (Dxf.lineBytes a i k s.bytes).1 ∧
    s'.bytes = (Dxf.lineBytes a i k s.bytes).2 ∧ (.failed ∈ s' ↔ .failed ∈ s) ∧
    (.interrupted ∈ s' → .interrupted ∈ s)

/-- Reading a line gives the line of the bytes, or there was an error. -/
theorem lineBytes_bytes (a : Bool) (i : Nat) (k : Bool) (s : Source) :
    Line a i k s (s.lineBytes a i k) := by
  induction h : s.weight using Nat.strongRecOn generalizing i k s with
  | _ n ih =>
    subst h
    have hb := nextByte_bytes s
    have hw := @nextByte_weight s
    rcases hr : nextByte s with ⟨_ | _ | b, s'⟩
    · rw [hr] at hb
      obtain ⟨h1, h2, rfl⟩ := hb
      rw [lineBytes_none a i k hr]
      unfold Line
      rw [h1]
      exact ⟨rfl, rfl, by simpa using h2, fun h => (nomatch h)⟩
    · rw [hr] at hb
      rw [lineBytes_error a i k hr]
      exact ⟨rfl, hb⟩
    · rw [hr] at hb hw
      obtain ⟨h1, h2, h3⟩ := hb
      replace hw := hw (by simp)
      have skip : ∀ k', Dxf.lineBytes a i k (b :: s'.bytes) = Dxf.lineBytes a (i + 1) k' s'.bytes →
          Line a i k s (s'.lineBytes a (i + 1) k') := by
        intro k' he
        have := ih _ hw (i + 1) k' s' rfl
        rcases hl : s'.lineBytes a (i + 1) k' with ⟨_ | _, _⟩
        · rw [hl] at this
          exact ⟨this.1, h2.mp this.2⟩
        · rw [hl] at this
          unfold Line
          rw [h1, he]
          exact ⟨this.1, this.2.1, this.2.2.1.trans h2, fun h => h3 (this.2.2.2 h)⟩
      rw [lineBytes_ok a i k hr]
      by_cases c1 : i = 0 ∧ b = 0xEF#8 ∧ a
      · rw [if_pos c1]
        exact skip true (by rw [Dxf.lineBytes, if_pos c1])
      · rw [if_neg c1]
        by_cases c2 : ((i = 1 ∧ b = 0xBB#8) ∨ (i = 2 ∧ b = 0xBF#8)) ∧ k
        · rw [if_pos c2]
          exact skip k (by rw [Dxf.lineBytes, if_neg c1, if_pos c2])
        · rw [if_neg c2]
          by_cases c3 : b = 0x0A#8
          · rw [if_pos c3]
            unfold Line
            rw [h1, Dxf.lineBytes, if_neg c1, if_neg c2, if_pos c3]
            exact ⟨rfl, rfl, h2, h3⟩
          · rw [if_neg c3]
            have := ih _ hw (i + 1) k s' rfl
            rcases hl : s'.lineBytes a (i + 1) k with ⟨_ | _, _⟩
            · rw [hl] at this
              exact ⟨this.1, h2.mp this.2⟩
            · rw [hl] at this
              change Line a i k s (.ok (b :: _), _)
              unfold Line
              rw [h1, Dxf.lineBytes, if_neg c1, if_neg c2, if_neg c3]
              exact ⟨congrArg (b :: ·) this.1, this.2.1, this.2.2.1.trans h2,
                fun h => h3 (this.2.2.2 h)⟩

theorem readLine_bytes (a : Bool) (enc : Enc) (s : Source) :
    ((s.readLine a enc).1 = .error .ioError ∧ .failed ∈ s) ∨
    ((s.readLine a enc).1 = (Dxf.readLine a enc s.bytes).1 ∧
      (s.readLine a enc).2.bytes = (Dxf.readLine a enc s.bytes).2 ∧
      (.failed ∈ (s.readLine a enc).2 ↔ .failed ∈ s) ∧
      (.interrupted ∈ (s.readLine a enc).2 → .interrupted ∈ s)) := by
  have := lineBytes_bytes a 0 false s
  unfold readLine
  generalize s.lineBytes a 0 false = r at this ⊢
  rcases r with ⟨e | l, s'⟩
  · rw [this.1]
    exact .inl ⟨rfl, this.2⟩
  · obtain ⟨h1, h2, h3, h4⟩ := this
    right
    dsimp only
    rw [h1]
    unfold Dxf.readLine
    dsimp only
    cases decode enc (Dxf.lineBytes a 0 false s.bytes).1 with
    | none => exact ⟨rfl, h2, h3, h4⟩
    | some l => exact ⟨rfl, h2, h3, h4⟩

theorem readToEnd_bytes (size : Nat → Nat) (k : Nat) (s : Source) :
    s.readToEnd size k = if .failed ∈ s then .error .ioError else .ok s.bytes := by
  induction h : s.weight using Nat.strongRecOn generalizing k s with
  | _ n ih =>
    subst h
    rw [readToEnd]
    have hb := read_bytes (size k) s
    have hw := read_weight (size k) s
    split
    · rename_i s' h
      rw [h] at hb
      rw [if_neg hb.2.1, hb.1]
    · rename_i b bs s' h
      rw [h] at hb hw
      rw [ih _ (hw.resolve_left (by simp)) _ s' rfl, hb.1]
      by_cases hf : .failed ∈ s
      · rw [if_pos hf, if_pos (hb.2.1.mpr hf)]
        rfl
      · rw [if_neg hf, if_neg (fun h => hf (hb.2.1.mp h))]
        rfl
    · rename_i s' h
      rw [h] at hb hw
      rw [ih _ (hw.resolve_left (by simp)) _ s' rfl, hb.1]
      by_cases hf : .failed ∈ s
      · rw [if_pos hf, if_pos (hb.2.1.mpr hf)]
      · rw [if_neg hf, if_neg (fun h => hf (hb.2.1.mp h))]
    · rename_i s' h
      rw [h] at hb
      exact (if_pos hb).symm

theorem parts_bytes (s : Source) : s.parts.1 ++ s.parts.2.flatten = s.bytes := by
  induction s with
  | nil => rfl
  | cons a s ih =>
    cases a with
    | data b bs =>
      change b :: bs ++ (parts s).1 ++ (parts s).2.flatten = b :: bs ++ bytes s
      rw [List.append_assoc, ih]
    | interrupted => exact ih
    | failed => exact ih

theorem parts_later {s : Source} (h1 : .failed ∉ s) (h2 : .interrupted ∉ s) : s.parts.2 = [] := by
  induction s with
  | nil => rfl
  | cons a s ih =>
    simp only [List.mem_cons, not_or] at h1 h2
    cases a with
    | data b bs => exact ih h1.2 h2.2
    | interrupted => exact absurd rfl h2.1
    | failed => exact absurd rfl h1.1

theorem nextByte_feed (b : Byte) (bs : List Byte) (s : Source) :
    nextByte (feed (b :: bs) s) = (some (.ok b), feed bs s) := by
  cases bs <;> rfl

theorem parts_feed (bs : List Byte) (s : Source) :
    (feed bs s).parts = (bs ++ s.parts.1, s.parts.2) := by
  cases bs <;> rfl

theorem bytes_feed (bs : List Byte) (s : Source) : (feed bs s).bytes = bs ++ s.bytes := by
  cases bs <;> rfl

/-- A line that is ready as a whole. -/
theorem lineBytes_feed (a : Bool) (l rest : List Byte) (s : Source) (i : Nat) (h1 : 0x0A#8 ∉ l)
    (h2 : 0xEF#8 ∉ l) : lineBytes a i false (feed (l ++ 0x0A#8 :: rest) s) = (.ok l, feed rest s) := by
  induction l generalizing i with
  | nil =>
    rw [List.nil_append, lineBytes_ok _ _ _ (nextByte_feed _ _ _), if_neg (by simp),
      if_neg (by simp), if_pos rfl]
  | cons b l ih =>
    simp only [List.mem_cons, not_or] at h1 h2
    rw [List.cons_append, lineBytes_ok _ _ _ (nextByte_feed _ _ _),
      if_neg (fun h => h2.1 h.2.1.symm), if_neg (by simp), if_neg (Ne.symm h1.1), ih _ h1.2 h2.2]
    rfl

/-- The first line of a DXB file that is ready as a whole. -/
theorem readLine_feed (enc : Enc) (rest : List Byte) (s : Source) :
    (feed (Dxb.sentinel ++ rest) s).readLine true enc =
      (.ok str!"AutoCAD DXB 1.0", feed ([byte 0x1A, byte 0] ++ rest) s) := by
  have ha : ∀ c ∈ str!"AutoCAD DXB 1.0" ++ ['\r'], c.toNat < 128 := by decide
  have e : Dxb.sentinel ++ rest = utf8Encode (str!"AutoCAD DXB 1.0" ++ ['\r']) ++
      0x0A#8 :: ([byte 0x1A, byte 0] ++ rest) := by
    rw [utf8Encode_ascii (by decide)]
    rfl
  unfold readLine
  rw [e, lineBytes_feed _ _ _ _ _ (by decide) (by decide)]
  dsimp only
  rw [decode_ascii enc ha]
  dsimp only
  rw [stripCr_cr]

end Source

/-! ### Reading DXB files with errors -/

namespace Dxb

/-- The reader without the errors. -/
def joined (s : DxbReader) : DxbReader := { s with
  bytes := s.bytes ++ s.later.flatten
  later := [] }

/-- What the function does does not depend on later errors, unless it is stopped by one. -/
def Whole {α : Type} (m : DxbM α) : Prop := ∀ s : DxbReader, s.later ≠ [] →
  m s = .error .ioError ∨
  (∃ a s', m s = .ok (a, s') ∧ s'.later = s.later ∧ s'.bytes <:+ s.bytes ∧
    m (joined s) = .ok (a, joined s')) ∨
  ∃ e, m s = .error e ∧ m (joined s) = .error e

namespace Whole

variable {α β : Type}

theorem pure (a : α) : Whole (Pure.pure a : DxbM α) := fun s _ =>
  .inr (.inl ⟨a, s, rfl, rfl, List.suffix_rfl, rfl⟩)

theorem fail (e : DxfErr) : Whole (Dxb.fail e : DxbM α) := fun _ _ => .inr (.inr ⟨e, rfl, rfl⟩)

theorem bind {m : DxbM α} {f : α → DxbM β} (h : Whole m) (hf : ∀ a, Whole (f a)) :
    Whole (m >>= f) := by
  intro s hs
  rcases h s hs with h | ⟨a, s', h1, h2, h3, h4⟩ | ⟨e, h1, h2⟩
  · exact .inl (run_err h)
  · rw [run_bind h1, run_bind h4]
    rcases hf a s' (h2 ▸ hs) with h | ⟨b, s'', g1, g2, g3, g4⟩ | h
    · exact .inl h
    · exact .inr (.inl ⟨b, s'', g1, g2.trans h2, g3.trans h3, g4⟩)
    · exact .inr (.inr h)
  · exact .inr (.inr ⟨e, run_err h1, run_err h2⟩)

theorem get_bind {f : DxbReader → DxbM β} (h : ∀ s, Whole (f s)) (hf : ∀ s, f (joined s) = f s) :
    Whole (get >>= f) := by
  intro s hs
  rw [run_get, run_get, hf]
  exact h s s hs

theorem modify {f : DxbReader → DxbReader} (h1 : ∀ s, (f s).later = s.later)
    (h2 : ∀ s, (f s).bytes = s.bytes) (h3 : ∀ s, f (joined s) = joined (f s)) :
    Whole (_root_.modify f : DxbM PUnit) := fun s _ =>
  .inr (.inl ⟨⟨⟩, f s, rfl, h1 s, h2 s ▸ List.suffix_rfl, by
    change Except.ok (PUnit.unit, f (joined s)) = _
    rw [h3]⟩)

theorem short {s : DxbReader} (h : s.later ≠ []) : s.short = .ioError := by
  unfold DxbReader.short
  split
  · contradiction
  · rfl

theorem word (n : Nat) : Whole (Dxb.word n) := by
  intro s hs
  by_cases h : n ≤ s.bytes.length
  · refine .inr (.inl ⟨_, _, if_pos h, rfl, List.drop_suffix _ _, ?_⟩)
    have h' : n ≤ (joined s).bytes.length := by
      change n ≤ (s.bytes ++ s.later.flatten).length
      rw [List.length_append]
      omega
    refine (if_pos h').trans ?_
    unfold joined
    dsimp only
    rw [List.take_append_of_le_length h, List.drop_append_of_le_length h]
  · left
    refine (if_neg h).trans ?_
    rw [short hs]

theorem readStringBin_append {bs : List Byte} {v : Str} {rest : List Byte}
    (h : readStringBin bs = (.ok v, rest)) (more : List Byte) :
    readStringBin (bs ++ more) = (.ok v, rest ++ more) ∧ rest <:+ bs := by
  induction bs generalizing v with
  | nil => cases h
  | cons b bs ih =>
    rw [List.cons_append]
    rw [readStringBin] at h ⊢
    split at h
    · cases h
      rename_i hb
      rw [if_pos hb]
      exact ⟨rfl, List.suffix_cons _ _⟩
    · rename_i hb
      rw [if_neg hb]
      dsimp only at h ⊢
      rcases hr : readStringBin bs with ⟨e | w, r⟩
      · rw [hr] at h
        cases h
      · rw [hr] at h
        cases h
        obtain ⟨h1, h2⟩ := ih hr
        rw [h1]
        exact ⟨rfl, h2.trans (List.suffix_cons _ _)⟩

theorem readString : Whole Dxb.readString := by
  intro s hs
  unfold Dxb.readString
  rcases hr : readStringBin s.bytes with ⟨e | v, rest⟩
  · left
    dsimp only
    rw [short hs]
  · obtain ⟨h1, h2⟩ := readStringBin_append hr s.later.flatten
    refine .inr (.inl ⟨v, _, rfl, rfl, h2, ?_⟩)
    change (match readStringBin (s.bytes ++ s.later.flatten) with
      | (.error _, _) => _
      | (.ok v, rest) => _) = _
    rw [h1]
    rfl

theorem readA : Whole readA := .get_bind (fun _ => .bind (.word 4) fun _ => .pure _) fun _ => rfl

theorem readU : Whole readU := .get_bind (fun _ => .bind (.word 4) fun _ => .pure _) fun _ => rfl

theorem readW : Whole readW := .get_bind (fun _ => .bind (.word 2) fun _ => .pure _) fun _ => rfl

theorem readN : Whole readN := by
  refine .get_bind (fun s => ?_) fun _ => rfl
  split
  · exact .bind (.word 2) fun _ => .pure _
  · exact .bind (.word 4) fun _ => .pure _

theorem readXy : Whole readXy := .bind .readN fun _ => .bind .readN fun _ => .pure _

theorem readXyz : Whole readXyz :=
  .bind .readN fun _ => .bind .readN fun _ => .bind .readN fun _ => .pure _

theorem wrap (k : EName) (r : Rec k.decls) : Whole (wrap k r) :=
  .get_bind (fun _ => .pure _) fun _ => rfl

theorem line (p q : Point) : Whole (do
    _root_.modify fun s => { s with lastLinePoint := q }
    mkLine p q) :=
  .bind (.modify (fun _ => rfl) (fun _ => rfl) fun _ => rfl) fun _ => .wrap _ _

theorem trace (p q r s : Point) : Whole (mkTrace p q r s) :=
  .bind (.modify (fun _ => rfl) (fun _ => rfl) fun _ => rfl) fun _ => .wrap _ _

theorem readEntity? {i : Nat} {m : DxbM Flat} (h : readEntity? i = some m) : Whole m := by
  unfold Dxb.readEntity? at h
  split at h <;> cases h
  · exact .bind .readXyz fun _ => .bind .readXyz fun _ => .line _ _
  · exact .bind .readXyz fun _ => .bind .readXyz fun _ => .line _ _
  · exact .bind .readXy fun _ => .wrap _ _
  · exact .bind .readXy fun _ => .bind .readN fun _ => .wrap _ _
  · exact .bind .readXy fun _ => .bind .readN fun _ => .bind .readA fun _ => .bind .readA fun _ =>
      .wrap _ _
  · exact .bind .readXy fun _ => .bind .readXy fun _ => .bind .readXy fun _ => .bind .readXy fun _ =>
      .trace _ _ _ _
  · exact .bind .readXy fun _ => .bind .readXy fun _ => .bind .readXy fun _ => .bind .readXy fun _ =>
      .wrap _ _
  · exact .wrap _ _
  · exact .bind .readW fun _ => .wrap _ _
  · exact .bind .readXy fun _ => .wrap _ _
  · exact .bind .readXyz fun _ => .bind .readXyz fun _ => .bind .readXyz fun _ =>
      .bind .readXyz fun _ => .wrap _ _
  · exact .bind .readXy fun _ => .get_bind (fun _ => .line _ _) fun _ => rfl
  · exact .bind .readXy fun _ => .bind .readXy fun _ => .get_bind (fun _ => .trace _ _ _ _) fun _ => rfl
  · exact .bind .readXyz fun _ => .get_bind (fun _ => .line _ _) fun _ => rfl

theorem updateVertex (f : Rec EName.vertex.decls → Rec EName.vertex.decls) (found : Found) :
    Whole (updateVertex f found) := by
  refine .get_bind (fun s => ?_) fun _ => rfl
  split
  · exact .fail _
  · exact .pure _
  · exact .fail _

theorem readOther? {i : Nat} {found : Found} {m : DxbM Found} (h : readOther? i found = some m)
    (hi : i ≠ 128) : Whole m := by
  unfold Dxb.readOther? at h
  split at h <;> cases h
  · exact .bind .readW fun _ => .bind (.modify (fun _ => rfl) (fun _ => rfl) fun _ => rfl) fun _ =>
      .pure _
  · exact .bind .readString fun _ =>
      .bind (.modify (fun _ => rfl) (fun _ => rfl) fun _ => rfl) fun _ => .pure _
  · exact absurd rfl hi
  · refine .bind .readXy fun _ => ?_
    split
    · exact .pure _
    · exact .fail _
  · exact .bind .readU fun _ => .updateVertex _ _
  · exact .bind .readW fun _ => .bind (.modify (fun _ => rfl) (fun _ => rfl) fun _ => rfl) fun _ =>
      .pure _
  · exact .bind .readN fun _ => .bind .readN fun _ => .updateVertex _ _

theorem expect (b : Byte) (n : Nat) : Whole (expect b n) := by
  refine .bind (.word 1) fun _ => ?_
  split
  · exact .pure _
  · exact .fail _

end Whole

theorem joined_size (s : DxbReader) : (joined s).size = s.size := by
  change (s.bytes ++ s.later.flatten).length + 0 = s.bytes.length + s.later.flatten.length
  rw [List.length_append, Nat.add_zero]

/-- The loop does not depend on errors after bytes among which there is no scale factor, unless it
is stopped by one. -/
theorem loop_whole (fuel : Nat) (found : Found) (s : DxbReader) (hs : s.later ≠ [])
    (hb : byte 128 ∉ s.bytes) : loop fuel found s = .error .ioError ∨
    (∃ a s' s'', loop fuel found s = .ok (a, s') ∧ loop fuel found (joined s) = .ok (a, s'')) ∨
    ∃ e, loop fuel found s = .error e ∧ loop fuel found (joined s) = .error e := by
  induction fuel generalizing found s with
  | zero => exact .inr (.inr ⟨_, rfl, rfl⟩)
  | succ fuel ih =>
    unfold loop
    rw [run_get, run_get]
    cases hbs : s.bytes with
    | nil =>
      left
      refine run_err ((if_neg (by rw [hbs]; exact Nat.not_succ_le_zero 0)).trans ?_)
      rw [Whole.short hs]
    | cons b bs =>
      have hw : word 1 s = .ok (b.toNat, { s with bytes := bs, offset := s.offset + 1 }) := by
        refine (if_pos (by rw [hbs]; exact Nat.succ_le_succ (Nat.zero_le _))).trans ?_
        rw [hbs]
        simp [leVal]
      have hw' : word 1 (joined s) =
          .ok (b.toNat, joined { s with bytes := bs, offset := s.offset + 1 }) := by
        have e : (joined s).bytes = b :: (bs ++ s.later.flatten) := by
          change s.bytes ++ _ = _
          rw [hbs]
          rfl
        refine (if_pos (by rw [e]; exact Nat.succ_le_succ (Nat.zero_le _))).trans ?_
        rw [e]
        simp [leVal, joined]
      have hne : b.toNat ≠ 128 := by
        intro h
        apply hb
        rw [hbs]
        have : b = byte 128 := BitVec.eq_of_toNat_eq h
        rw [this]
        exact List.mem_cons_self
      have hbs' : byte 128 ∉ bs := fun h => hb (by rw [hbs]; exact List.mem_cons_of_mem _ h)
      rw [run_bind hw, run_bind hw']
      generalize hs1 : ({ s with bytes := bs, offset := s.offset + 1 } : DxbReader) = s1
      have hs2 : s1.later ≠ [] := by rw [← hs1]; exact hs
      have hb1 : s1.bytes = bs := by rw [← hs1]
      split
      · exact .inr (.inl ⟨found, s1, joined s1, rfl, rfl⟩)
      · cases hr : readEntity? b.toNat with
        | some read =>
          dsimp only
          rcases Whole.readEntity? hr s1 hs2 with h | ⟨e, s2, h1, h2, h3, h4⟩ | ⟨e, h1, h2⟩
          · exact .inl (run_err h)
          · rw [run_bind h1, run_bind h4]
            exact ih _ s2 (h2 ▸ hs2) fun h => hbs' (hb1 ▸ h3.subset h)
          · exact .inr (.inr ⟨e, run_err h1, run_err h2⟩)
        | none =>
          cases hr2 : readOther? b.toNat found with
          | some read =>
            dsimp only
            rcases Whole.readOther? hr2 hne s1 hs2 with h | ⟨e, s2, h1, h2, h3, h4⟩ | ⟨e, h1, h2⟩
            · exact .inl (run_err h)
            · rw [run_bind h1, run_bind h4]
              exact ih _ s2 (h2 ▸ hs2) fun h => hbs' (hb1 ▸ h3.subset h)
            · exact .inr (.inr ⟨e, run_err h1, run_err h2⟩)
          | none => exact .inr (.inr ⟨_, rfl, rfl⟩)

theorem items_whole (s : DxbReader) (hs : s.later ≠ []) (hb : byte 128 ∉ s.bytes) :
    items s = .error .ioError ∨
    (∃ a s' s'', items s = .ok (a, s') ∧ items (joined s) = .ok (a, s'')) ∨
    ∃ e, items s = .error e ∧ items (joined s) = .error e := by
  unfold items
  rcases Whole.expect (byte 0x1A) 16 s hs with h | ⟨⟨⟩, s1, h1, h2, h3, h4⟩ | ⟨e, h1, h2⟩
  · exact .inl (run_err h)
  · rw [run_bind h1, run_bind h4]
    have hs1 : s1.later ≠ [] := h2 ▸ hs
    rcases Whole.expect (byte 0) 17 s1 hs1 with h | ⟨⟨⟩, s2, g1, g2, g3, g4⟩ | ⟨e, h1, h2⟩
    · exact .inl (run_err h)
    · rw [run_bind g1, run_bind g4, run_get, run_get, joined_size]
      exact loop_whole _ _ s2 (g2 ▸ hs1) fun h => hb (h3.subset (g3.subset h))
    · exact .inr (.inr ⟨e, run_err h1, run_err h2⟩)
  · exact .inr (.inr ⟨e, run_err h1, run_err h2⟩)

/-- A scale factor that cannot be read because of an error is not noticed. -/
theorem items_torn (m : DxbMode) (more : List Byte) :
    ∃ s, items (reader ([byte 0x1A, byte 0] ++ (m.choose ++ [byte 128])) [byte 0 :: more]) =
      .ok (⟨none, []⟩, s) := by
  have hl : ∀ (n : Nat) (s : DxbReader), s.bytes = [byte 128] → s.later = [byte 0 :: more] →
      ∃ s', loop (n + 2) ⟨none, []⟩ s = .ok (⟨none, []⟩, s') := by
    intro n s h1 h2
    obtain ⟨bs, later, a, b, c, d, e, f, g, h⟩ := s
    dsimp only at h1 h2
    subst h1 h2
    exact ⟨_, rfl⟩
  cases m with
  | whole =>
    have h1 : expect (byte 0x1A) 16 (reader ([byte 0x1A, byte 0] ++ (DxbMode.whole.choose ++
        [byte 128])) [byte 0 :: more]) = .ok ((), { reader [byte 0, byte 128] [byte 0 :: more] with
          offset := 1 }) := rfl
    have h2 : expect (byte 0) 17 { reader [byte 0, byte 128] [byte 0 :: more] with offset := 1 } =
        .ok ((), { reader [byte 128] [byte 0 :: more] with offset := 2 }) := rfl
    unfold items
    rw [run_bind h1, run_bind h2, run_get]
    exact hl _ _ rfl rfl
  | float =>
    have h1 : expect (byte 0x1A) 16 (reader ([byte 0x1A, byte 0] ++ (DxbMode.float.choose ++
        [byte 128])) [byte 0 :: more]) = .ok ((), { reader (byte 0 :: (DxbMode.float.choose ++
          [byte 128])) [byte 0 :: more] with offset := 1 }) := rfl
    have h2 : expect (byte 0) 17 { reader (byte 0 :: (DxbMode.float.choose ++
        [byte 128])) [byte 0 :: more] with offset := 1 } =
        .ok ((), { reader (DxbMode.float.choose ++ [byte 128]) [byte 0 :: more] with
          offset := 2 }) := rfl
    unfold items
    rw [run_bind h1, run_bind h2, run_get]
    obtain ⟨k, hk, h⟩ := loops_mode (s := reader [] [byte 0 :: more]) rfl ⟨none, []⟩
    obtain ⟨n, hn⟩ : ∃ n, DxbReader.size { reader (DxbMode.float.choose ++ [byte 128])
        [byte 0 :: more] with offset := 2 } + 1 = n + 2 + k := by
      refine ⟨more.length + 4 - k, ?_⟩
      replace hk : k ≤ 3 := hk
      have : DxbReader.size { reader (DxbMode.float.choose ++ [byte 128])
        [byte 0 :: more] with offset := 2 } = 4 + (more.length + 1) := by
        change 4 + ((byte 0 :: more) ++ []).length = _
        rw [List.append_nil]
        rfl
      omega
    rw [hn]
    obtain ⟨off, h⟩ := h [byte 128] 2 (n + 2)
    obtain ⟨s', h'⟩ := hl n { reader [byte 128] [byte 0 :: more] with
      isIntegerMode := false
      offset := off } rfl rfl
    exact ⟨s', h.trans h'⟩

theorem load_whole {Img : Type} (h0 : Header) (order : List Str) (bytes : List Byte)
    (later : List (List Byte)) (hb : byte 128 ∉ bytes) :
    (Drawing.loadDxb h0 order bytes later : Except DxfErr (Drawing Img)) = .error .ioError ∨
    (Drawing.loadDxb h0 order bytes later : Except DxfErr (Drawing Img)) =
      Drawing.loadDxb h0 order (bytes ++ later.flatten) := by
  cases later with
  | nil => right; simp
  | cons c cs =>
    have e : joined (reader bytes (c :: cs)) = reader (bytes ++ (c :: cs).flatten) := rfl
    unfold Drawing.loadDxb
    rcases items_whole (reader bytes (c :: cs)) (List.cons_ne_nil _ _) hb with
      h | ⟨a, s', s'', h1, h2⟩ | ⟨e', h1, h2⟩
    · left
      rw [h]
      rfl
    · right
      rw [e] at h2
      rw [h1, h2]
      rfl
    · right
      rw [e] at h2
      rw [h1, h2]

end Dxb

/-! ### Writing -/

namespace Sink

/-- What `write_all` does: everything was taken, or a part of it. -/
def All (bs taken : List Byte) : Option (List Byte) × Sink → Prop
  | (none, w) => w.taken = taken ++ bs
  | (some rest, w) => ∃ a, bs = a ++ rest ∧ rest ≠ [] ∧ w.taken = taken ++ a

theorem writeAll'_spec (replies : List Reply) (taken bs : List Byte) :
    All bs taken (writeAll' replies taken bs) := by
  induction replies generalizing taken bs with
  | nil =>
    cases bs with
    | nil => simp [writeAll', All]
    | cons b bs => rfl
  | cons r replies ih =>
    cases bs with
    | nil => simp [writeAll', All]
    | cons b bs =>
      cases r with
      | takes k =>
        have := ih (taken ++ b :: bs.take k) (bs.drop k)
        change All _ _ (writeAll' replies (taken ++ b :: bs.take k) (bs.drop k))
        rcases hr : writeAll' replies (taken ++ b :: bs.take k) (bs.drop k) with ⟨_ | rest, w⟩
        · rw [hr] at this
          refine Eq.trans this ?_
          rw [List.append_assoc, List.cons_append, List.take_append_drop]
        · rw [hr] at this
          obtain ⟨a, h1, h2, h3⟩ := this
          refine ⟨b :: bs.take k ++ a, ?_, h2, ?_⟩
          · rw [List.append_assoc, ← h1, List.cons_append, List.take_append_drop]
          · rw [h3, List.append_assoc]
      | nothing => exact ⟨[], rfl, List.cons_ne_nil _ _, (List.append_nil _).symm⟩
      | interrupted => exact ih taken (b :: bs)
      | failed => exact ⟨[], rfl, List.cons_ne_nil _ _, (List.append_nil _).symm⟩

theorem writeAll_spec (bs : List Byte) (w : Sink) : All bs w.taken (w.writeAll bs) :=
  writeAll'_spec w.replies w.taken bs

theorem writeAll'_willing {replies : List Reply} (h : Willing replies) (taken bs : List Byte) :
    (writeAll' replies taken bs).1 = none ∧ Willing (writeAll' replies taken bs).2.replies := by
  induction replies generalizing taken bs with
  | nil =>
    cases bs with
    | nil => exact ⟨by simp [writeAll'], by simpa [writeAll'] using h⟩
    | cons b bs => exact ⟨rfl, h⟩
  | cons r replies ih =>
    cases bs with
    | nil => exact ⟨by simp [writeAll'], by simpa [writeAll'] using h⟩
    | cons b bs =>
      have ht : Willing replies := fun r hr => h r (List.mem_cons_of_mem _ hr)
      have hr := h r List.mem_cons_self
      cases r with
      | takes k => exact ih ht _ _
      | nothing => exact absurd rfl hr.1
      | interrupted => exact ih ht _ _
      | failed => exact absurd rfl hr.2

theorem writeAll_willing {w : Sink} (h : Willing w.replies) (bs : List Byte) :
    (w.writeAll bs).1 = none ∧ Willing (w.writeAll bs).2.replies :=
  writeAll'_willing h w.taken bs

/-- What several calls of `write_all` do. -/
def Each (bs taken : List Byte) : Except DxfErr Unit × Sink → Prop
  | (.ok _, w) => w.taken = taken ++ bs
  | (.error e, w) => e = .ioError ∧ ∃ a b, bs = a ++ b ∧ b ≠ [] ∧ w.taken = taken ++ a

theorem writeEach_spec (pieces : List (List Byte)) (w : Sink) :
    Each pieces.flatten w.taken (w.writeEach pieces) := by
  induction pieces generalizing w with
  | nil => simp [writeEach, Each]
  | cons bs pieces ih =>
    unfold writeEach
    have h1 := writeAll_spec bs w
    rcases hr : w.writeAll bs with ⟨_ | rest, w'⟩
    · rw [hr] at h1
      replace h1 : w'.taken = w.taken ++ bs := h1
      dsimp only
      have := ih w'
      rcases he : w'.writeEach pieces with ⟨e | u, w''⟩
      · rw [he] at this
        obtain ⟨he, a, b, h2, h3, h4⟩ := this
        refine ⟨he, bs ++ a, b, ?_, h3, ?_⟩
        · rw [List.flatten_cons, h2, List.append_assoc]
        · rw [h4, h1, List.append_assoc]
      · rw [he] at this
        refine Eq.trans this ?_
        rw [h1, List.flatten_cons, List.append_assoc]
    · rw [hr] at h1
      obtain ⟨a, h2, h3, h4⟩ := h1
      refine ⟨rfl, a, rest ++ pieces.flatten, ?_, by simp [h3], h4⟩
      rw [List.flatten_cons, h2, List.append_assoc]

theorem writeEach_willing {pieces : List (List Byte)} {w : Sink} (h : Willing w.replies) :
    (w.writeEach pieces).1 = .ok () := by
  induction pieces generalizing w with
  | nil => rfl
  | cons bs pieces ih =>
    unfold writeEach
    obtain ⟨h1, h2⟩ := writeAll_willing h bs
    rcases hr : w.writeAll bs with ⟨_ | rest, w'⟩
    · rw [hr] at h2
      exact ih h2
    · rw [hr] at h1
      cases h1

end Sink

/-! ### Files -/

namespace BufWriter

/-- What has been given to the writer. -/
def total (w : BufWriter) : List Byte := w.inner.taken ++ w.buf

/-- What `flush_buf` does. -/
def Flushes (w : BufWriter) : Bool × BufWriter → Prop
  | (true, w') => w'.inner.taken = w.total ∧ w'.buf = []
  | (false, w') => w'.total = w.total ∧ w'.buf.length ≤ w.buf.length

theorem flush_spec (w : BufWriter) : w.Flushes w.flush := by
  unfold flush
  have := Sink.writeAll_spec w.buf w.inner
  rcases hr : w.inner.writeAll w.buf with ⟨_ | rest, inner⟩
  · rw [hr] at this
    exact ⟨this, rfl⟩
  · rw [hr] at this
    obtain ⟨a, h1, h2, h3⟩ := this
    refine ⟨?_, ?_⟩
    · change inner.taken ++ rest = w.inner.taken ++ w.buf
      rw [h3, h1, List.append_assoc]
    · change rest.length ≤ _
      rw [h1, List.length_append]
      exact Nat.le_add_left _ _

/-- What `write_all` does. -/
def Puts (bs : List Byte) (w : BufWriter) : Bool × BufWriter → Prop
  | (true, w') => w'.total = w.total ++ bs ∧ w'.buf.length ≤ capacity
  | (false, w') => (∃ a, a <+: bs ∧ w'.total = w.total ++ a) ∧ w'.buf.length ≤ capacity

theorem put_spec (bs : List Byte) (w : BufWriter)
    (h : w.buf = [] ∨ bs.length + w.buf.length ≤ capacity) : Puts bs w (w.put bs) := by
  unfold put
  split
  · rename_i hl
    refine ⟨(List.append_assoc _ _ _).symm, ?_⟩
    change (w.buf ++ bs).length ≤ _
    rw [List.length_append]
    rcases h with h | h
    · rw [h, List.length_nil]
      omega
    · omega
  · rename_i hl
    have hb : w.buf = [] := by
      rcases h with h | h
      · exact h
      · exact List.eq_nil_of_length_eq_zero (by omega)
    have hz : w.buf.length ≤ capacity := by
      rw [hb]
      exact Nat.zero_le _
    have := Sink.writeAll_spec bs w.inner
    rcases hr : w.inner.writeAll bs with ⟨_ | rest, inner⟩
    · rw [hr] at this
      refine ⟨?_, hz⟩
      change inner.taken ++ w.buf = (w.inner.taken ++ w.buf) ++ bs
      rw [hb, List.append_nil, List.append_nil]
      exact this
    · rw [hr] at this
      obtain ⟨a, h1, h2, h3⟩ := this
      refine ⟨⟨a, ⟨rest, h1.symm⟩, ?_⟩, hz⟩
      change inner.taken ++ w.buf = (w.inner.taken ++ w.buf) ++ a
      rw [hb, List.append_nil, List.append_nil]
      exact h3

theorem writeAll_spec (bs : List Byte) (w : BufWriter) (h : w.buf.length ≤ capacity) :
    Puts bs w (w.writeAll bs) := by
  unfold writeAll
  split
  · rename_i hl
    exact put_spec bs w (.inr hl)
  · have hf := flush_spec w
    rcases hr : w.flush with ⟨_ | _, w'⟩
    · rw [hr] at hf
      exact ⟨⟨[], List.nil_prefix, by rw [List.append_nil]; exact hf.1⟩, Nat.le_trans hf.2 h⟩
    · rw [hr] at hf
      have ht : w'.total = w.total := by
        unfold total
        rw [hf.1, hf.2, List.append_nil]
        rfl
      have := put_spec bs w' (.inl hf.2)
      dsimp only
      rcases hp : w'.put bs with ⟨_ | _, w''⟩
      · rw [hp] at this
        unfold Puts at this ⊢
        rw [ht] at this
        exact this
      · rw [hp] at this
        unfold Puts at this ⊢
        rw [ht] at this
        exact this

/-- What several calls of `write_all` do. -/
def Each (bs : List Byte) (w : BufWriter) : Except DxfErr Unit × BufWriter → Prop
  | (.ok _, w') => w'.total = w.total ++ bs ∧ w'.buf.length ≤ capacity
  | (.error e, w') => e = .ioError ∧ ∃ a, a <+: bs ∧ w'.total = w.total ++ a

theorem writeEach_spec (pieces : List (List Byte)) (w : BufWriter) (h : w.buf.length ≤ capacity) :
    Each pieces.flatten w (w.writeEach pieces) := by
  induction pieces generalizing w with
  | nil => exact ⟨(List.append_nil _).symm, h⟩
  | cons bs pieces ih =>
    unfold writeEach
    have h1 := writeAll_spec bs w h
    rcases hr : w.writeAll bs with ⟨_ | _, w'⟩
    · rw [hr] at h1
      obtain ⟨⟨a, h2, h3⟩, _⟩ := h1
      exact ⟨rfl, a, by rw [List.flatten_cons]; exact h2.trans (List.prefix_append _ _), h3⟩
    · rw [hr] at h1
      dsimp only
      have := ih w' h1.2
      rcases he : w'.writeEach pieces with ⟨e | u, w''⟩
      · rw [he] at this
        obtain ⟨he, a, h2, h3⟩ := this
        refine ⟨he, bs ++ a, ?_, ?_⟩
        · rw [List.flatten_cons]
          exact (List.prefix_append_right_inj _).mpr h2
        · rw [h3, h1.1, List.append_assoc]
      · rw [he] at this
        refine ⟨?_, this.2⟩
        rw [this.1, h1.1, List.flatten_cons, List.append_assoc]

theorem drop_spec (w : BufWriter) :
    w.drop.taken <+: w.total ∧ w.total.length ≤ w.drop.taken.length + w.buf.length := by
  unfold drop
  have := flush_spec w
  rcases hr : w.flush with ⟨_ | _, w'⟩
  · rw [hr] at this
    dsimp only
    rw [← this.1]
    refine ⟨List.prefix_append _ _, ?_⟩
    unfold total
    rw [List.length_append]
    have := this.2
    omega
  · rw [hr] at this
    dsimp only
    rw [this.1]
    exact ⟨List.prefix_rfl, Nat.le_add_right _ _⟩

theorem flush_willing {w : BufWriter} (h : Willing w.inner.replies) :
    w.flush.1 = true ∧ Willing w.flush.2.inner.replies := by
  unfold flush
  obtain ⟨h1, h2⟩ := Sink.writeAll_willing h w.buf
  rcases hr : w.inner.writeAll w.buf with ⟨_ | rest, inner⟩
  · rw [hr] at h2
    exact ⟨rfl, h2⟩
  · rw [hr] at h1
    cases h1

theorem put_willing {w : BufWriter} (h : Willing w.inner.replies) (bs : List Byte) :
    (w.put bs).1 = true ∧ Willing (w.put bs).2.inner.replies := by
  unfold put
  split
  · exact ⟨rfl, h⟩
  · obtain ⟨h1, h2⟩ := Sink.writeAll_willing h bs
    rcases hr : w.inner.writeAll bs with ⟨_ | rest, inner⟩
    · rw [hr] at h2
      exact ⟨rfl, h2⟩
    · rw [hr] at h1
      cases h1

theorem writeAll_willing {w : BufWriter} (h : Willing w.inner.replies) (bs : List Byte) :
    (w.writeAll bs).1 = true ∧ Willing (w.writeAll bs).2.inner.replies := by
  unfold writeAll
  split
  · exact put_willing h bs
  · obtain ⟨h1, h2⟩ := flush_willing h
    rcases hr : w.flush with ⟨_ | _, w'⟩
    · rw [hr] at h1
      cases h1
    · rw [hr] at h2
      exact put_willing h2 bs

theorem writeEach_willing {w : BufWriter} (h : Willing w.inner.replies) (pieces : List (List Byte)) :
    (w.writeEach pieces).1 = .ok () ∧ Willing (w.writeEach pieces).2.inner.replies := by
  induction pieces generalizing w with
  | nil => exact ⟨rfl, h⟩
  | cons bs pieces ih =>
    unfold writeEach
    obtain ⟨h1, h2⟩ := writeAll_willing h bs
    rcases hr : w.writeAll bs with ⟨_ | _, w'⟩
    · rw [hr] at h1
      cases h1
    · rw [hr] at h2
      exact ih h2

/-! A writer that takes everything that is offered, and then answers something else. -/

theorem sink_takes (k : Nat) (taken bs : List Byte) (h : bs.length ≤ k) : ∃ n, ∀ tail,
    Sink.writeAll bs ⟨List.replicate n (.takes k) ++ tail, taken⟩ = (none, ⟨tail, taken ++ bs⟩) := by
  cases bs with
  | nil => exact ⟨0, fun tail => by simp [Sink.writeAll, Sink.writeAll']⟩
  | cons b bs =>
    refine ⟨1, fun tail => ?_⟩
    rw [List.length_cons] at h
    change Sink.writeAll' tail (taken ++ b :: bs.take k) (bs.drop k) = _
    rw [List.take_of_length_le (by omega), List.drop_eq_nil_of_le (by omega)]
    simp [Sink.writeAll']

theorem replicate_add_append {α : Type} (n m : Nat) (a : α) (tail : List α) :
    List.replicate (n + m) a ++ tail = List.replicate n a ++ (List.replicate m a ++ tail) := by
  rw [List.replicate_add, List.append_assoc]

theorem put_takes (k : Nat) (taken buf bs : List Byte) (h : bs.length ≤ k) :
    ∃ n taken' buf', (∀ tail, put bs ⟨⟨List.replicate n (.takes k) ++ tail, taken⟩, buf⟩ =
      (true, ⟨⟨tail, taken'⟩, buf'⟩)) ∧ (bs ≠ [] → bs.length < capacity → buf' ≠ []) := by
  by_cases hl : bs.length < capacity
  · refine ⟨0, taken, buf ++ bs, fun tail => ?_, fun h _ => by simp [h]⟩
    exact if_pos hl
  · obtain ⟨n, hn⟩ := sink_takes k taken bs h
    refine ⟨n, taken ++ bs, buf, fun tail => ?_, fun _ h => absurd h hl⟩
    refine (if_neg hl).trans ?_
    dsimp only
    rw [hn tail]

theorem writeAll_takes (k : Nat) (hk : capacity ≤ k) (taken buf bs : List Byte)
    (hb : buf.length ≤ capacity) (h : bs.length ≤ k) : ∃ n taken' buf',
    (∀ tail, writeAll bs ⟨⟨List.replicate n (.takes k) ++ tail, taken⟩, buf⟩ =
      (true, ⟨⟨tail, taken'⟩, buf'⟩)) ∧ (bs ≠ [] → bs.length < capacity → buf' ≠ []) := by
  by_cases hl : bs.length + buf.length ≤ capacity
  · obtain ⟨n, t, b, h1, h2⟩ := put_takes k taken buf bs h
    exact ⟨n, t, b, fun tail => (if_pos hl).trans (h1 tail), h2⟩
  · obtain ⟨n, hn⟩ := sink_takes k taken buf (Nat.le_trans hb hk)
    obtain ⟨m, t, b, h1, h2⟩ := put_takes k (taken ++ buf) [] bs h
    refine ⟨n + m, t, b, fun tail => (if_neg hl).trans ?_, h2⟩
    unfold flush
    dsimp only
    rw [replicate_add_append, hn]
    exact h1 tail

theorem writeEach_takes (k : Nat) (hk : capacity ≤ k) (pieces : List (List Byte))
    (h : ∀ bs ∈ pieces, bs.length ≤ k) (taken buf : List Byte) (hb : buf.length ≤ capacity) :
    ∃ n taken' buf', ∀ tail,
      writeEach pieces ⟨⟨List.replicate n (.takes k) ++ tail, taken⟩, buf⟩ =
        (.ok (), ⟨⟨tail, taken'⟩, buf'⟩) := by
  induction pieces generalizing taken buf with
  | nil => exact ⟨0, taken, buf, fun _ => rfl⟩
  | cons bs pieces ih =>
    obtain ⟨n, t, b, h1, _⟩ := writeAll_takes k hk taken buf bs hb (h bs List.mem_cons_self)
    have hb' : b.length ≤ capacity := by
      have := writeAll_spec bs ⟨⟨List.replicate n (.takes k) ++ [], taken⟩, buf⟩ hb
      rw [h1 []] at this
      exact this.2
    obtain ⟨m, t', b', h2⟩ := ih (fun q hq => h q (List.mem_cons_of_mem _ hq)) t b hb'
    refine ⟨n + m, t', b', fun tail => ?_⟩
    unfold writeEach
    rw [replicate_add_append, h1]
    exact h2 tail

/-- Small pieces stay in the buffer. -/
theorem writeEach_small (pieces : List (List Byte)) (buf : List Byte) {inner : Sink}
    (h : buf.length + pieces.flatten.length < capacity) :
    writeEach pieces ⟨inner, buf⟩ = (.ok (), ⟨inner, buf ++ pieces.flatten⟩) := by
  induction pieces generalizing buf with
  | nil => simp [writeEach]
  | cons bs pieces ih =>
    rw [List.flatten_cons, List.length_append] at h
    have h1 : writeAll bs ⟨inner, buf⟩ = (true, ⟨inner, buf ++ bs⟩) := by
      unfold writeAll put
      rw [if_pos (by dsimp only; omega), if_pos (by omega)]
    unfold writeEach
    rw [h1, List.flatten_cons, ← List.append_assoc]
    exact ih _ (by rw [List.length_append]; omega)

theorem writeEach_append (xs ys : List (List Byte)) (w : BufWriter) :
    w.writeEach (xs ++ ys) = match w.writeEach xs with
      | (.ok _, w') => w'.writeEach ys
      | (.error e, w') => (.error e, w') := by
  induction xs generalizing w with
  | nil => rfl
  | cons x xs ih =>
    rw [List.cons_append, writeEach, writeEach]
    rcases w.writeAll x with ⟨_ | _, w'⟩
    · rfl
    · exact ih w'

/-- If the last piece is short, some bytes are left in the buffer at the end. -/
theorem writeEach_last (xs : List (List Byte)) (last : List Byte) (h1 : last ≠ [])
    (h2 : last.length < capacity) : ∃ replies taken buf, buf ≠ [] ∧ ∀ tail,
      writeEach (xs ++ [last]) ⟨⟨replies ++ tail, []⟩, []⟩ = (.ok (), ⟨⟨tail, taken⟩, buf⟩) := by
  have hk : ∀ bs ∈ xs, bs.length ≤ capacity + xs.flatten.length := by
    intro bs hbs
    have := (List.sublist_flatten_of_mem hbs).length_le
    omega
  obtain ⟨n, t, b, e1⟩ := writeEach_takes (capacity + xs.flatten.length) (Nat.le_add_right _ _) xs hk
    [] [] (Nat.zero_le _)
  have hb : b.length ≤ capacity := by
    have := writeEach_spec xs
      ⟨⟨List.replicate n (.takes (capacity + xs.flatten.length)) ++ [], []⟩, []⟩ (Nat.zero_le _)
    rw [e1 []] at this
    exact this.2
  obtain ⟨m, t', b', e2, e3⟩ := writeAll_takes (capacity + xs.flatten.length) (Nat.le_add_right _ _)
    t b last hb (by omega)
  refine ⟨List.replicate (n + m) (.takes (capacity + xs.flatten.length)), t', b', e3 h1 h2,
    fun tail => ?_⟩
  rw [writeEach_append, replicate_add_append, e1]
  dsimp only
  unfold writeEach
  rw [e2]
  rfl

end BufWriter

end Dxf
