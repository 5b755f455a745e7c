import Verif.Spec.Typed
import Verif.Lemmas.BlindFile
import Verif.Lemmas.Until
import Verif.Props.Codec

/-! Loading the bytes of a saved drawing. -/

namespace Dxf

open Drawing

variable {Img : Type}

theorem headerValuesUntil_blind (name : Str) (fuel : Nat) : ∀ r,
    Blind id (headerValuesUntil Header.vars Header.switches name fuel r)
      (headerValuesUntil Header.vars Header.switches name fuel r) := by
  induction fuel with
  | zero => exact fun _ => Blind.fail rfl
  | succ fuel ih =>
    intro r
    unfold headerValuesUntil
    exact Blind.bindNext? (Blind.pure rfl) fun p => Blind.ite Iff.rfl
      (fun _ => Blind.bindBack p (Blind.pure rfl)) fun _ =>
        Blind.bindLift (setHeaderValue_like _ _ _) fun _ =>
          Blind.ite Iff.rfl (fun _ => Blind.pure rfl) fun _ => ih _

theorem headerLoopUntil_blind (fuel : Nat) : ∀ r,
    Blind id (headerLoopUntil Header.vars Header.switches fuel r)
      (headerLoopUntil Header.vars Header.switches fuel r) := by
  induction fuel with
  | zero => exact fun _ => Blind.fail rfl
  | succ fuel ih =>
    intro r
    unfold headerLoopUntil
    refine Blind.bindNext? (Blind.pure rfl) fun p => Blind.ite Iff.rfl
      (fun _ => Blind.bindBack p (Blind.pure rfl)) fun _ => Blind.ite Iff.rfl
        (fun _ => Blind.bindLift (Like.assertString p) fun _ =>
          Blind.bindId (Blind.withFuel fun k => headerValuesUntil_blind _ k _) fun a => ?_)
        fun _ => Blind.fail rfl
    cases a with
    | none => exact Blind.pure rfl
    | some r' => exact ih r'

namespace Drawing

theorem readSectionUntil_blind (codec : ImageCodec Img) (h0 : Header) (name : Str)
    (d : Drawing Img) : Blind (Option.map strip) (readSectionUntil codec h0 name d)
      (readSectionUntil codec h0 name d.strip) := by
  unfold readSectionUntil
  refine Blind.ite Iff.rfl (fun _ => ?_) fun _ =>
    Blind.bind (readSection_blind codec h0 name d) fun _ => Blind.pure rfl
  unfold Header.readUntil
  refine Blind.bindId (Blind.withFuel fun k => headerLoopUntil_blind k _) fun h =>
    Blind.pure ?_
  cases h <;> rfl

theorem readSectionsUntil_blind (codec : ImageCodec Img) (h0 : Header) (fuel : Nat) :
    ∀ d : Drawing Img, Blind id (readSectionsUntil codec h0 fuel d)
      (readSectionsUntil codec h0 fuel d.strip) := by
  induction fuel with
  | zero => exact fun _ => Blind.fail rfl
  | succ fuel ih =>
    intro d
    unfold readSectionsUntil
    refine Blind.bindNext? (Blind.pure rfl) fun p => Blind.ite Iff.rfl (fun _ => ?_)
      fun _ => Blind.fail rfl
    refine Blind.bindLift (Like.assertString p) fun _ => Blind.ite Iff.rfl
      (fun _ => Blind.pure rfl) fun _ => Blind.ite Iff.rfl (fun _ => ?_)
        fun _ => Blind.fail rfl
    refine Blind.bindNext fun q => ?_
    rw [show q.strip.value = q.value from rfl]
    split
    · refine Blind.ite Iff.rfl (fun _ => Blind.bind (readSectionUntil_blind codec h0 _ d) fun a => ?_)
        fun _ => Blind.fail rfl
      cases a with
      | none => exact Blind.pure rfl
      | some d => exact Blind.bindId (expect_blind _) fun _ => ih _
    · exact Blind.fail rfl

theorem loadUntil_blind (codec : ImageCodec Img) (h0 : Header) (order : List Str) :
    Blind id (loadUntil codec h0 order) (loadUntil codec h0 order) := by
  unfold loadUntil
  refine Blind.bindLift Like.rfl' fun d => Blind.withFuel fun k => ?_
  exact readSectionsUntil_blind codec h0 k d.clear

/-- Whether the iterator is told to read UTF-8 does not depend on the places. -/
theorem loadUntil_same (codec : ImageCodec Img) (h0 : Header) (order : List Str) {s s' : Stream}
    (hs : Stream.strip s = Stream.strip s') {b : Bool}
    (h : (loadUntil codec h0 order s).1 = .ok b) : (loadUntil codec h0 order s').1 = .ok b := by
  have h1 := (loadUntil_blind codec h0 order s).1
  have h2 := (loadUntil_blind codec h0 order s').1
  rw [h, hs] at h1
  cases hx : (loadUntil codec h0 order (Stream.strip s')).1 with
  | error e => rw [hx] at h1; exact h1.elim
  | ok b1 =>
    rw [hx] at h1 h2
    cases hy : (loadUntil codec h0 order s').1 with
    | error e => rw [hy] at h2; exact h2.elim
    | ok c =>
      rw [hy] at h2
      exact congrArg Except.ok ((show b1 = c from h2).symm.trans h1)

theorem switched_none {codec : ImageCodec Img} {h0 : Header} {order : List Str} {main : Stream}
    (h : (loadUntil codec h0 order main).1 = .ok false) (alt : Stream) :
    switched codec h0 order main alt = main := by
  unfold switched
  split
  · rename_i h1
    rw [h1] at h
    cases h
  · rfl

/-- If both iterators read the same, nothing changes. -/
theorem switched_self (codec : ImageCodec Img) (h0 : Header) (order : List Str) (main : Stream) :
    switched codec h0 order main main = main := by
  unfold switched
  split
  · exact List.take_append_drop _ _
  · rfl

/-- A file of a new version makes the iterator read UTF-8 after four pairs. -/
theorem switched_new {codec : ImageCodec Img} {h0 : Header} {order : List Str} {d0 : Drawing Img}
    (hnew : (new h0 order : Except DxfErr (Drawing Img)) = .ok d0) {v : Version} (hv : .r2007 ≤ v)
    (o1 o2 o3 o4 : Nat) (rest alt : Stream) :
    switched codec h0 order (some (.ok ⟨0, .str str!"SECTION", o1⟩) ::
      some (.ok ⟨2, .str str!"HEADER", o2⟩) :: some (.ok ⟨9, .str str!"$ACADVER", o3⟩) ::
      some (.ok ⟨1, .str v.display, o4⟩) :: rest) alt =
    [some (.ok ⟨0, .str str!"SECTION", o1⟩), some (.ok ⟨2, .str str!"HEADER", o2⟩),
      some (.ok ⟨9, .str str!"$ACADVER", o3⟩), some (.ok ⟨1, .str v.display, o4⟩)] ++ alt.drop 4 := by
  have h : loadUntil codec h0 order (some (.ok ⟨0, .str str!"SECTION", o1⟩) ::
      some (.ok ⟨2, .str str!"HEADER", o2⟩) :: some (.ok ⟨9, .str str!"$ACADVER", o3⟩) ::
      some (.ok ⟨1, .str v.display, o4⟩) :: rest) = (.ok true, rest) := by
    unfold loadUntil
    rw [hnew, Rd.bind_ok (m := Rd.lift (.ok d0)) (a := d0) rfl, Rd.run_withFuel,
      readSectionsUntil_open]
    have : readSectionUntil codec h0 str!"HEADER" d0.clear
        (some (.ok ⟨9, .str str!"$ACADVER", o3⟩) :: some (.ok ⟨1, .str v.display, o4⟩) :: rest) =
        (.ok none, rest) := by
      unfold readSectionUntil
      rw [if_pos rfl, Rd.bind_ok (Header.readUntil_new hv o3 o4 rest)]
      rfl
    rw [Rd.bind_ok this]
    rfl
  unfold switched
  rw [h]
  dsimp only
  rw [show (some (Except.ok (⟨0, .str str!"SECTION", o1⟩ : CodePair)) ::
      some (.ok ⟨2, .str str!"HEADER", o2⟩) :: some (.ok ⟨9, .str str!"$ACADVER", o3⟩) ::
      some (.ok ⟨1, .str v.display, o4⟩) :: rest : Stream).length - rest.length = 4 by
    simp only [List.length_cons]; omega]
  rfl

theorem codePairs_start {codec : ImageCodec Img} {d : Drawing Img} {ps : List CodePair}
    (h : d.codePairs codec = .ok ps) : ∃ qs, ps = .newStr 0 str!"SECTION" ::
      .newStr 2 str!"HEADER" :: .newStr 9 str!"$ACADVER" :: .newStr 1 d.version.display :: qs := by
  unfold codePairs at h
  cases h1 : d.objectPairs with
  | error e => rw [h1] at h; cases h
  | ok os =>
    rw [h1] at h
    cases h2 : d.thumbnailPairs codec with
    | error e => rw [h2] at h; cases h
    | ok ts =>
      rw [h2] at h
      have h := Except.ok.inj h
      exact ⟨_, h.symm⟩

end Drawing

/-- The first pairs of a written file are read whatever the values of the others. -/
theorem items_step {old : Bool} {enc : Enc} {p : CodePair} (ps : List CodePair)
    (hwt : p.WellTyped) (hv : ValOk old enc p.value) (fuel : Nat) (off : Nat) :
    TextIter.items (fuel + 1) ⟨writeAscii old (p :: ps), enc, none, off⟩ =
      some (.ok ⟨p.code, textVal p.value, off + 1⟩) ::
        TextIter.items fuel ⟨writeAscii old ps, enc, none, off + 2⟩ := by
  rw [TextIter.items, writeAscii_cons, next_written hwt hv]
  have hne : TextIter.done ⟨writeAsciiPair old p ++ writeAscii old ps, enc, none, off⟩ = false := by
    simp only [TextIter.done, Bool.and_eq_false_iff]
    left
    rw [List.isEmpty_eq_false_iff]
    exact writeAsciiPair_ne_nil old p _
  rw [hne]
  rfl

theorem all_step {old : Bool} {enc : Enc} (p : CodePair) (ps : List CodePair)
    (hwt : p.WellTyped) (hv : ValOk old enc p.value) : ∃ fuel, ps.length < fuel ∧
    TextIter.all ⟨utf8Encode (valueLine old p.value ++ str!"\r\n") ++ writeAscii old ps, enc,
        some (codeText p.code), 1⟩ =
      some (.ok ⟨p.code, textVal p.value, 1⟩) ::
        TextIter.items fuel ⟨writeAscii old ps, enc, none, 2⟩ := by
  obtain ⟨h0, h1⟩ := expected_range hwt
  refine ⟨(utf8Encode (valueLine old p.value ++ str!"\r\n") ++ writeAscii old ps).length, ?_, ?_⟩
  · rw [List.length_append, utf8Encode_append, List.length_append]
    have := length_le_writeAscii old ps
    have e : (utf8Encode (str!"\r\n")).length = 2 := by decide
    omega
  unfold TextIter.all
  rw [TextIter.items]
  have hd : TextIter.done ⟨utf8Encode (valueLine old p.value ++ str!"\r\n") ++ writeAscii old ps,
      enc, some (codeText p.code), 1⟩ = false := by simp [TextIter.done]
  rw [hd]
  simp only [Bool.false_eq_true, if_false]
  unfold TextIter.next TextIter.readCode
  simp only
  rw [codeText_trim, if_neg (fmtInt_ne_nil _), parseI32_code h0 h1]
  simp only
  rw [readValue_written hwt hv]

theorem textVal_gives {v w : CodePairValue} (h : TextValue.Gives v w) : textVal v = w := by
  cases v with
  | double x =>
    obtain ⟨y, rfl, h1⟩ := h
    have h2 := readsAs_textDouble x 0
    rw [h1 0] at h2
    exact congrArg CodePairValue.double (Except.ok.inj h2).symm
  | _ => exact h.symm

/-- Nothing but the places has changed. -/
theorem strip_expected (off : Nat) {ps qs : List CodePair}
    (h : List.Forall₂ (fun p q => q.code = p.code ∧ TextValue.Gives p.value q.value) ps qs) :
    Stream.strip ((expectedPairs off ps).map fun q => some (.ok q)) =
      Stream.strip (toStream qs) := by
  induction h generalizing off with
  | nil => rfl
  | @cons p q ps qs h _ ih =>
    have := ih (off + 2)
    rw [expectedPairs, List.map_cons, toStream_cons, Stream.strip, List.map_cons, Stream.strip,
      List.map_cons]
    rw [textVal_gives h.2, ← h.1]
    exact congrArg _ this

theorem strip_eqPairs {ps qs : List CodePair} (h : List.Forall₂ EqPair ps qs) :
    Stream.strip (qs.map fun q => some (.ok q)) = Stream.strip (toStream ps) := by
  induction h with
  | nil => rfl
  | cons h _ ih =>
    rename_i p q ps qs _
    rw [List.map_cons, toStream_cons, Stream.strip, List.map_cons, Stream.strip, List.map_cons]
    obtain ⟨h1, h2⟩ := h
    have : Item.strip (some (.ok q)) = Item.strip (some (.ok p)) := by
      change some (Except.ok (⟨q.code, q.value, 0⟩ : CodePair)) = some (.ok ⟨p.code, p.value, 0⟩)
      rw [h1, h2]
    rw [this]
    exact congrArg _ ih

end Dxf
