import Verif.Lemmas.InterruptedBin
import Verif.Lemmas.Bytes
import Verif.Props.Brackets
import Verif.Props.Bytes

/-! C55: files whose writing was interrupted. -/

namespace Dxf

open Drawing

variable {Img : Type} {codec : ImageCodec Img}

theorem Wordly.like {ps : List CodePair} (h : Wordly ps) : ∀ p ∈ ps, Wordlike p := fun p hp =>
  ⟨(h p hp).1, fun h0 => let ⟨w, h1, h2, _⟩ := (h p hp).2 h0; ⟨w, h1, h2⟩⟩

theorem fine_switched {codec : ImageCodec Img} {enc : Enc} {h0 : Header} {order : List Str}
    {file : List Byte} {main alt : Stream} (h : fileItems enc file = .ok (some (main, alt))) :
    Fine false (switched codec h0 order main alt) := by
  obtain ⟨h1, h2, _⟩ := (fileItems_good enc file).2 main alt h
  refine fun it hm => ⟨fun he => ?_, by simp⟩
  subst he
  rcases switched_mem hm with hm | hm
  · exact h1 _ hm (.inr rfl)
  · exact h2 _ hm (.inr rfl)

/-- What the loader makes of the items of the first bytes of a file. -/
theorem load_hopes (codec : ImageCodec Img) (h0 : Header) (order : List Str) {names : List Str}
    {ps : List CodePair} (hb : Bracketed names ps) (hw : Wordly ps) {k : Nat} {p : CodePair}
    (hp : ps[k]? = some p) {few nearly : Prop} {piece : Bool} {s : Stream}
    (hs : List.Forall₂ Meets (hopes (ps.take k) p few nearly piece) s) (hf : Fine false s)
    {d : Drawing Img} (h : (load codec h0 order s).1 = .ok d) :
    (BetweenSections (ps.take k) ∧ (piece = false ∨ few)) ∨
    (BetweenSections (ps.take (k + 1)) ∧ nearly) := by
  obtain ⟨s1, tail, h1, h2, rfl⟩ := forall₂_split hs
  have h1' : List.Forall₂ Shown (ps.take k) s1 := by
    rw [List.forall₂_map_left_iff] at h1
    exact h1
  cases piece with
  | false =>
    cases h2
    rcases load_interrupted codec h0 order hb hw hp h1' (few := few) (nearly := nearly)
      (.inl rfl) hf h with h | h
    · exact .inl ⟨h.1, .inl rfl⟩
    · exact .inr h
  | true =>
    rw [if_pos rfl] at h2
    cases h2 with
    | cons ht h2 =>
      cases h2
      rcases load_interrupted codec h0 order hb hw hp h1' (few := few) (nearly := nearly)
        (.inr ⟨_, rfl, ht⟩) hf h with h | h
      · refine .inl ⟨h.1, .inr (h.2.resolve_left (by simp))⟩
      · exact .inr h

/-- The first pair of a well bracketed file. -/
theorem Bracketed.first {names : List Str} {ps : List CodePair} (h : Bracketed names ps)
    {p : CodePair} (hp : ps[0]? = some p) : p.code = 0 := by
  obtain ⟨sections, rfl, _, _⟩ := h
  cases sections <;> cases hp <;> rfl

/-- C55 for text files: when only the first `n` bytes of a file have been written and they are
loaded, no section was open: up to the end of a line or the blanks before a code they are what is
written for all pairs up to a place between two sections, before the first or behind the last. -/
theorem C55_text_partial {d : Drawing Img} {ps : List CodePair} {file : List Byte}
    (hps : d.codePairs codec = .ok ps) (hfile : d.saveText codec = .ok file) (hd : d.Tame)
    (hw : Wordly ps) (enc : Enc) (h0 : Header) (order : List Str) {n : Nat} (hn : n < file.length)
    {d' : Drawing Img} (hl : loadBytes codec enc h0 order (file.take n) = .ok d') :
    ∃ done rest, ps = done ++ rest ∧ BetweenSections done ∧
      (writeAscii (decide (d.version ≤ .r2004)) done).length ≤ n + 2 ∧
      n ≤ (writeAscii (decide (d.version ≤ .r2004)) done).length + 2 := by
  have hb := C35_partial hps hd
  unfold saveText at hfile
  rw [hps] at hfile
  obtain rfl := Except.ok.inj hfile
  generalize decide (d.version ≤ .r2004) = old at hn hl ⊢
  obtain ⟨k, p, rest, hk, htake, hpre, hlt⟩ := take_pieces (writeAsciiPair old) ps n hn
  have hlen : n = (writeAscii old (ps.take k)).length + rest.length := by
    have := congrArg List.length htake
    rw [List.length_take, List.length_append] at this
    have hn' : n < (ps.flatMap (writeAsciiPair old)).length := hn
    change n = ((ps.take k).flatMap (writeAsciiPair old)).length + rest.length
    omega
  have hp := hw.like p (List.mem_of_getElem? hk)
  -- it is enough to know how the loading ended
  have key : (BetweenSections (ps.take k) ∧ (rest = [] ∨ rest.length ≤ 2)) ∨
      (BetweenSections (ps.take (k + 1)) ∧ (writeAsciiPair old p).length ≤ rest.length + 2) →
      ∃ done rest, ps = done ++ rest ∧ BetweenSections done ∧
        (writeAscii old done).length ≤ n + 2 ∧ n ≤ (writeAscii old done).length + 2 := by
    rintro (⟨h1, h2⟩ | ⟨h1, h2⟩)
    · refine ⟨ps.take k, ps.drop k, (List.take_append_drop _ _).symm, h1, by omega, ?_⟩
      rcases h2 with rfl | h2
      · simp only [List.length_nil] at hlen; omega
      · omega
    · refine ⟨ps.take (k + 1), ps.drop (k + 1), (List.take_append_drop _ _).symm, h1, ?_⟩
      have e : writeAscii old (ps.take (k + 1)) =
          writeAscii old (ps.take k) ++ writeAsciiPair old p := by
        rw [List.take_add_one, hk]
        simp [writeAscii]
      rw [e, List.length_append]
      omega
  apply key
  have hbytes : (writeAscii old ps).take n = writeAscii old (ps.take k) ++ rest := htake
  rw [hbytes] at hl
  cases k with
  | zero =>
    rcases Nat.lt_or_ge rest.length 3 with h3 | h3
    · exact .inl ⟨.inl rfl, .inr (by omega)⟩
    · obtain ⟨it1, it2, h1, t1, t2⟩ := fileItems_piece enc hp (hb.first hk) hpre hlt h3
        (rest.length ≤ 2)
      have hl' : loadBytes codec enc h0 order rest = .ok d' := hl
      unfold loadBytes at hl'
      rw [h1] at hl'
      have hopes1 : ∀ it, Torn (rest.length ≤ 2) ((writeAsciiPair old p).length ≤ rest.length + 2) p it →
          List.Forall₂ Meets (hopes (ps.take 0) p (rest.length ≤ 2)
            ((writeAsciiPair old p).length ≤ rest.length + 2) true) [it] :=
        fun it ht => .cons ht .nil
      rcases load_hopes codec h0 order hb hw hk (switched_mix (hopes1 _ t1) (hopes1 _ t2))
        (fine_switched h1) hl' with h | h
      · exact .inl ⟨h.1, .inr (h.2.resolve_left (by simp))⟩
      · exact .inr h
  | succ k =>
    obtain ⟨q, ps', rfl⟩ : ∃ q ps', ps = q :: ps' := by
      cases ps with
      | nil => cases hk
      | cons q ps' => exact ⟨q, ps', rfl⟩
    rw [List.take_succ_cons, writeAscii_cons, List.append_assoc, asciiPair_split] at hl
    have hitems := fileItems_code enc q.code
      (utf8Encode (valueLine old q.value ++ str!"\r\n") ++ (writeAscii old (ps'.take k) ++ rest))
    unfold loadBytes at hl
    rw [hitems] at hl
    have hq : ∀ r ∈ q :: ps'.take k, Wordlike r := by
      intro r hr
      refine hw.like r ?_
      rcases List.mem_cons.mp hr with rfl | hr
      · exact List.mem_cons_self
      · exact List.mem_cons_of_mem _ (List.mem_of_mem_take hr)
    have hopes1 := fun e => all_hopes (enc := e) hp hpre hlt hq
    rcases load_hopes codec h0 order hb hw hk
      (switched_mix (hopes1 enc) (hopes1 .utf8)) (fine_switched hitems) hl with h | h
    · refine .inl ⟨h.1, ?_⟩
      rcases h.2 with h | h
      · exact .inl (by simpa using h)
      · exact .inr h
    · exact .inr h

/-- The first pair of a saved file. -/
theorem Bracketed.first_section {name : Str} {names : List Str} {ps : List CodePair}
    (h : Bracketed (name :: names) ps) {p : CodePair} (hp : ps[0]? = some p) :
    p = .newStr 0 str!"SECTION" := by
  obtain ⟨sections, rfl, hn, _⟩ := h
  cases sections with
  | nil => cases hn
  | cons s sections => cases hp; rfl

/-- C55 for binary files: when only the first `n` bytes of a file have been written and they are
loaded, they are what is written for all pairs up to a place between two sections, before the first
or behind the last, or nothing at all. -/
theorem C55_binary_partial {d : Drawing Img} {ps : List CodePair} {file : List Byte}
    (hps : d.codePairs codec = .ok ps) (hfile : d.saveBinary codec = .ok file) (hd : d.Tame)
    (hw : Wordly ps)
    (hv : ∀ p ∈ ps, p.WellTyped ∧ BinOk (decide (.r13 ≤ d.version)) p.value) (enc : Enc)
    (h0 : Header) (order : List Str) {n : Nat} (hn : n < file.length) {d' : Drawing Img}
    (hl : loadBytes codec enc h0 order (file.take n) = .ok d') :
    n = 0 ∨ ∃ done rest, ps = done ++ rest ∧ BetweenSections done ∧
      n = (writeBin (decide (.r13 ≤ d.version)) done).length := by
  have hb := C35_partial hps hd
  unfold saveBinary at hfile
  rw [hps] at hfile
  obtain rfl := Except.ok.inj hfile
  generalize decide (.r13 ≤ d.version) = wide at hn hl hv ⊢
  have hplen : binPrelude.length = 22 := by decide
  have stop : ∀ e, e ≠ .outOfFuel → (load codec h0 order
      (switched codec h0 order [some (.error e)] [some (.error e)])).1 ≠ .ok d' := by
    intro e he
    rw [switched_self]
    refine load_stops codec h0 order (a := []) (b := []) (fun h => nomatch h) (fun _ h => nomatch h)
      (by simp) rfl (fun ⟨_, h, _⟩ => by cases h) ?_ ?_ d'
    · rintro it hm ⟨_, h, _⟩
      rw [List.mem_singleton.mp hm] at h
      cases h
    · intro it hm
      rw [List.mem_singleton.mp hm]
      exact ⟨by simpa using he, by simp⟩
  by_cases h22 : n < 22
  · rcases Nat.eq_zero_or_pos n with h | h
    · exact .inl h
    · exfalso
      have htake : (writeBin wide ps).take n = binPrelude.take n := by
        unfold writeBin
        rw [List.take_append_of_le_length (by omega)]
      rw [htake] at hl
      unfold loadBytes at hl
      rcases fileItems_prelude_cut enc h h22 with ⟨e, he⟩ | ⟨e, he⟩
      · rw [he] at hl; cases hl
      · have hgood := ((fileItems_good enc _).2 _ _ he).1 e (by simp)
        rw [he] at hl
        exact stop e (fun h => hgood (.inr h)) hl
  · right
    have hn' : n - 22 < (ps.flatMap (writeBinPair wide)).length := by
      unfold writeBin at hn
      rw [List.length_append] at hn
      omega
    obtain ⟨k, p, rest, hk, htake, hpre, hlt⟩ := take_pieces (writeBinPair wide) ps _ hn'
    have hlen : n = (writeBin wide (ps.take k)).length + rest.length := by
      have := congrArg List.length htake
      rw [List.length_take, List.length_append] at this
      unfold writeBin
      rw [List.length_append]
      omega
    have hbytes : (writeBin wide ps).take n =
        binPrelude ++ ((ps.take k).flatMap (writeBinPair wide) ++ rest) := by
      unfold writeBin
      rw [List.take_append, List.take_of_length_le (by omega), hplen, htake]
    rw [hbytes] at hl
    have hitems := fileItems_prelude enc ((ps.take k).flatMap (writeBinPair wide) ++ rest)
    unfold loadBytes at hl
    rw [hitems] at hl
    obtain ⟨hpt, hpv⟩ := hv p (List.mem_of_getElem? hk)
    suffices H : BetweenSections (ps.take k) ∧ rest = [] by
      refine ⟨ps.take k, ps.drop k, (List.take_append_drop _ _).symm, H.1, ?_⟩
      rw [hlen, H.2]
      rfl
    cases k with
    | zero =>
      by_cases hr : rest = []
      · exact ⟨.inl rfl, hr⟩
      · exfalso
        obtain rfl := hb.first_section hk
        have hone := binAll_piece wide hpre hlt hr
        rw [show (ps.take 0).flatMap (writeBinPair wide) ++ rest = rest from rfl, hone] at hl
        exact stop _ (by simp) hl
    | succ k =>
      obtain ⟨q, ps', rfl⟩ : ∃ q ps', ps = q :: ps' := by
        cases ps with
        | nil => cases hk
        | cons q ps' => exact ⟨q, ps', rfl⟩
      have hq0 := hb.first_section (p := q) rfl
      have hopes1 := binAll_hopes hpt hpv hpre hlt (q := q) (ps := ps'.take k) (by
        intro r hr
        refine hv r ?_
        rcases List.mem_cons.mp hr with rfl | hr
        · exact List.mem_cons_self
        · exact List.mem_cons_of_mem _ (List.mem_of_mem_take hr)) hq0 20
      rcases load_hopes codec h0 order hb hw hk (switched_mix hopes1 hopes1)
        (fine_switched hitems) hl with h | h
      · refine ⟨h.1, ?_⟩
        rcases h.2 with h | h
        · simpa using h
        · exact h.elim
      · exact h.2.elim

private def noImages : ImageCodec Unit :=
  ⟨fun _ => .error .imageError, fun _ => .error .imageError⟩

/-- A drawing of version R10 with a line. -/
private def oneLine : Drawing Unit where
  header := Rec.set (Rec.dflt Header.decls) 0 (.r10 : Version)
  classes := []
  tables := fun _ => []
  blocks := []
  entities := [⟨⟨.line, 0, Entry.dflt _⟩, Extra.dflt⟩]
  objects := []
  thumbnail := none

/-- The first bytes of a saved drawing are loaded without its entities. -/
private def lost (save : Except DxfErr (List Byte)) (n : Nat) : Bool :=
  match save with
  | .error _ => false
  | .ok file => decide (n < file.length) &&
    match loadBytes noImages .win1252 (Rec.dflt _) [] (file.take n) with
    | .ok d => d.entities.isEmpty
    | .error _ => false

private theorem lost_ok {save : Except DxfErr (List Byte)} {n : Nat} (h : lost save n = true) :
    ∃ file, save = .ok file ∧ n < file.length ∧ ∃ d',
      loadBytes noImages .win1252 (Rec.dflt _) [] (file.take n) = .ok d' ∧ d'.entities = [] := by
  unfold lost at h
  split at h
  · cases h
  · rename_i file
    simp only [Bool.and_eq_true, decide_eq_true_eq] at h
    refine ⟨file, rfl, h.1, ?_⟩
    have h := h.2
    split at h
    · rename_i d hd
      exact ⟨d, hd, List.isEmpty_iff.mp h⟩
    · cases h

private theorem lost_text : lost (oneLine.saveText noImages) 3530 = true := by decide +kernel

private theorem lost_binary : lost (oneLine.saveBinary noImages) 2181 = true := by decide +kernel

/-- The property as stated does not hold: there is a drawing with an entity whose text and binary
files are loaded without error and without the entity when they are cut between two sections. -/
theorem C55_violated : ∃ (codec : ImageCodec Unit) (d : Drawing Unit), d.entities ≠ [] ∧
    (∃ file n d', d.saveText codec = .ok file ∧ n < file.length ∧
      loadBytes codec .win1252 (Rec.dflt _) [] (file.take n) = .ok d' ∧ d'.entities = []) ∧
    (∃ file n d', d.saveBinary codec = .ok file ∧ n < file.length ∧
      loadBytes codec .win1252 (Rec.dflt _) [] (file.take n) = .ok d' ∧ d'.entities = []) := by
  obtain ⟨f1, a1, a2, d1, a3, a4⟩ := lost_ok lost_text
  obtain ⟨f2, b1, b2, d2, b3, b4⟩ := lost_ok lost_binary
  exact ⟨noImages, oneLine, List.cons_ne_nil _ _,
    ⟨f1, _, d1, a1, a2, a3, a4⟩, ⟨f2, _, d2, b1, b2, b3, b4⟩⟩

/-- The pairs of a file are as the theorems above want them. -/
private def fit (wide : Bool) (ps : List CodePair) : Bool := ps.all fun p =>
  (ExpectedType.new p.code).isSome && (decide (p.code ≠ 0) || match p.value with
    | .str w => w.all (fun c => decide (32 < c.toNat ∧ c.toNat < 127 ∧ c ≠ '^' ∧ c ≠ '\\')) &&
      (!(str!"ENDSEC").isPrefixOf w || decide (w = str!"ENDSEC"))
    | _ => false) && decide (BinOk wide p.value)

private theorem fit_ok {wide : Bool} {ps : List CodePair} (h : fit wide ps = true) :
    Wordly ps ∧ ∀ p ∈ ps, BinOk wide p.value := by
  simp only [fit, List.all_eq_true, Bool.and_eq_true, Bool.or_eq_true, decide_eq_true_eq] at h
  refine ⟨fun p hp => ⟨(h p hp).1.1, fun h0 => ?_⟩, fun p hp => (h p hp).2⟩
  have h1 := (h p hp).1.2.resolve_left (fun h => h h0)
  split at h1
  · rename_i w hw
    simp only [Bool.and_eq_true, Bool.or_eq_true, List.all_eq_true, decide_eq_true_eq,
      Bool.not_eq_true'] at h1
    refine ⟨w, hw, h1.1, fun hpre => h1.2.resolve_left fun hn => ?_⟩
    rw [List.isPrefixOf_iff_prefix.mpr hpre] at hn
    cases hn
  · cases h1

private theorem fits_ok {codec : ImageCodec Unit} {d : Drawing Unit} {wide : Bool}
    (h : (match d.codePairs codec with | .ok ps => fit wide ps | _ => false) = true) :
    ∃ ps, d.codePairs codec = .ok ps ∧ Wordly ps ∧ ∀ p ∈ ps, BinOk wide p.value := by
  split at h
  · rename_i ps hps
    exact ⟨ps, hps, fit_ok h⟩
  · cases h

/-- The hypotheses of `C55_text_partial` and `C55_binary_partial` hold for the sample drawing. -/
example : ∃ codec : ImageCodec Unit, ∃ ps, sampleRounded.codePairs codec = .ok ps ∧
    sampleRounded.Tame ∧ Wordly ps ∧
    (∀ p ∈ ps, p.WellTyped ∧ BinOk (decide (.r13 ≤ sampleRounded.version)) p.value) ∧
    sampleRounded.entities ≠ [] := by
  obtain ⟨ps, h1, h2, h3⟩ := fits_ok (codec := noImages) (d := sampleRounded)
    (wide := decide (.r13 ≤ sampleRounded.version)) (by decide +kernel)
  have hh : ∀ p ∈ sampleRounded.held, p.WellTyped := by
    intro p hp
    rw [show sampleRounded.held = [] from rfl] at hp
    cases hp
  have hf : sampleRounded.Faithful noImages := by
    have := sampleDrawing_faithful noImages
    exact { this with dates := this.dates }
  refine ⟨noImages, ps, h1, ?_, h2, fun p hp => ⟨C49_partial h1 hh (no_hours hf) p hp, h3 p hp⟩,
    by simp [sampleRounded, sampleDrawing]⟩
  refine ⟨by decide, ?_, ?_, ?_, ?_⟩
  · intro t x hx
    cases t <;> first | cases hx | skip
    · intro g hg
      cases hg
    · rename_i h
      cases h
  · intro b hb
    obtain rfl := List.mem_singleton.mp hb
    refine ⟨fun g hg => (by cases hg), fun e he g hg => ?_⟩
    obtain rfl := List.mem_singleton.mp he
    cases hg
  · intro e he g hg
    obtain rfl := List.mem_singleton.mp he
    cases hg
  · intro o ho
    obtain rfl := List.mem_singleton.mp ho
    exact ⟨fun g hg => (by cases hg), fun p hp => (by cases hp)⟩

end Dxf
