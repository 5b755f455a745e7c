import Verif.Lemmas.Insert

/-! Inserting something into a section of a file. -/

namespace Dxf

/-- Any pair. -/
def AnyCode (_ : Int) : Prop := True

theorem next_comments (c : List CodePair) (hc : ∀ q ∈ c, q.code = 999) (p : CodePair)
    (hp : p.code ≠ 999) (t : Stream) : Rd.next (toStream c ++ some (.ok p) :: t) = (.ok p, t) := by
  induction c with
  | nil => exact Rd.next_cons hp t
  | cons q c ih =>
    have hq := hc q (by simp)
    rw [toStream_cons, List.cons_append]
    have : Rd.next (some (.ok q) :: (toStream c ++ some (.ok p) :: t)) =
        Rd.next (toStream c ++ some (.ok p) :: t) := by
      unfold Rd.next
      rw [Stream.next, if_pos (by simpa [isComment] using hq)]
    rw [this]
    exact ih fun q hq => hc q (by simp [hq])

theorem next?_comments (c : List CodePair) (hc : ∀ q ∈ c, q.code = 999) (p : CodePair)
    (hp : p.code ≠ 999) (t : Stream) :
    Rd.next? (toStream c ++ some (.ok p) :: t) = (.ok (some p), t) := by
  induction c with
  | nil => exact Rd.next?_cons hp t
  | cons q c ih =>
    have hq := hc q (by simp)
    rw [toStream_cons, List.cons_append]
    have : Rd.next? (some (.ok q) :: (toStream c ++ some (.ok p) :: t)) =
        Rd.next? (toStream c ++ some (.ok p) :: t) := by
      unfold Rd.next?
      rw [Stream.next, if_pos (by simpa [isComment] using hq)]
    rw [this]
    exact ih fun q hq => hc q (by simp [hq])

namespace Drawing

variable {Img : Type}

theorem expect_run (mark : Str) (c : List CodePair) (hc : ∀ q ∈ c, q.code = 999) (e : CodePair)
    (he : e.code = 0) (hv : e.value = .str mark) (t : Stream) :
    expect mark (toStream c ++ some (.ok e) :: t) = (.ok (), t) := by
  unfold expect
  refine (Rd.bind_ok (next_comments c hc e (by omega) t)).trans ?_
  change (if e.code = 0 ∧ e.value = .str mark then _ else _ : Rd Unit) t = _
  rw [if_pos ⟨he, hv⟩]
  rfl

/-- A reader followed by a mark. -/
def closed {σ : Type} (m : Rd σ) (mark : Str) : Rd σ := do
  let a ← m
  expect mark
  return a

theorem closed_inv {σ : Type} {m : Rd σ} {mark : Str} {s t : Stream} {a : σ}
    (h : closed m mark s = (.ok a, t)) : ∃ (c : List CodePair) (e : CodePair),
      (∀ q ∈ c, q.code = 999) ∧ e.code = 0 ∧ e.value = .str mark ∧
      m s = (.ok a, toStream c ++ some (.ok e) :: t) := by
  obtain ⟨a', t', h1, h2⟩ := Rd.bind_inv h
  obtain ⟨_, t'', h3, h4⟩ := Rd.bind_inv h2
  cases h4
  obtain ⟨c, e, hc, rfl, he, hv⟩ := expect_ok h3
  exact ⟨c, e, hc, he, hv, h1⟩

theorem closed_run {σ : Type} {m : Rd σ} {mark : Str} {s t : Stream} {a : σ} {c : List CodePair}
    {e : CodePair} (hc : ∀ q ∈ c, q.code = 999) (he : e.code = 0) (hv : e.value = .str mark)
    (h : m s = (.ok a, toStream c ++ some (.ok e) :: t)) : closed m mark s = (.ok a, t) := by
  unfold closed
  refine (Rd.bind_ok h).trans ?_
  refine (Rd.bind_ok (expect_run mark c hc e he hv t)).trans ?_
  rfl

theorem closed_passes {σ : Type} {m : σ → Rd σ} (hm : ∀ st, Loc (m st)) (mark : Str) :
    Passes AnyCode fun st => closed (m st) mark := by
  refine ⟨fun st s st' t hs h => ?_, fun st st' u v q z q' z' hfi _ _ hl h => ?_⟩
  · obtain ⟨c, e, _, _, _, h1⟩ := closed_inv h
    have h2 := (hm st).suffix s hs
    rw [h1] at h2
    have h3 : t <:+ toStream c ++ some (.ok e) :: t :=
      (List.suffix_cons _ _).trans (List.suffix_append _ _)
    refine ⟨h3.trans h2, ?_⟩
    have := h2.length_le
    simp only [List.length_append, List.length_cons] at this
    omega
  · obtain ⟨c, e, hc, he, hv, h1⟩ := closed_inv h
    rw [show toStream c ++ some (.ok e) :: (v ++ some (.ok q) :: z) =
      (toStream c ++ some (.ok e) :: v) ++ some (.ok q) :: z by simp] at h1
    have h2 := (hm st).loc u (some (.ok q) :: z) (some (.ok q') :: z')
      (toStream c ++ some (.ok e) :: v) hfi (by simp)
      (by simpa using hl) (by simp) (by rw [h1]; exact Calm.ok) (by rw [h1])
    rw [h1] at h2
    refine closed_run hc he hv (h2.trans ?_)
    simp

/-! ### Sections -/

/-- A section without the mark at its end. -/
def sectionHead (codec : ImageCodec Img) (h0 : Header) (d : Drawing Img) : Rd (Drawing Img) := do
  expect str!"SECTION"
  let pair ← Rd.next
  match pair.value with
  | .str name =>
    if pair.code = 2 then readSection codec h0 name d
    else Rd.fail (.unexpectedCodePair pair)
  | _ => Rd.fail (.unexpectedCodePair pair)

theorem sectionHead_loc (codec : ImageCodec Img) (h0 : Header) (d : Drawing Img) :
    Loc (sectionHead codec h0 d) := by
  unfold sectionHead
  refine .bind (expect_loc _) fun _ => .next fun p => .drop ?_
  split
  · exact .ite (fun _ => readSection_loc _ _ _ _) fun _ => .fail
  · exact .fail

theorem bind_assoc {α β γ : Type} (m : Rd α) (f : α → Rd β) (g : β → Rd γ) :
    ((m >>= f) >>= g) = (m >>= fun a => f a >>= g) := by
  funext s
  rw [Rd.run_bind, Rd.run_bind, Rd.run_bind]
  rcases m s with ⟨e | a, t⟩
  · rfl
  · exact (Rd.run_bind (f a) g t).symm

theorem oneSection_eq (codec : ImageCodec Img) (h0 : Header) :
    oneSection codec h0 = fun d => closed (sectionHead codec h0 d) str!"ENDSEC" := by
  funext d
  unfold oneSection closed sectionHead
  rw [bind_assoc]
  congr 1
  funext _
  rw [bind_assoc]
  congr 1
  funext p
  rcases p with ⟨c, value, o⟩
  cases value
  case str name =>
    change (if c = 2 then _ else Rd.fail _ : Rd (Drawing Img)) =
      ((if c = 2 then readSection codec h0 name d else Rd.fail _) >>= _)
    by_cases h : c = 2
    · rw [if_pos h, if_pos h]
    · rw [if_neg h, if_neg h]; rfl
  all_goals rfl

theorem oneSection_passes (codec : ImageCodec Img) (h0 : Header) :
    Passes AnyCode (oneSection codec h0) := by
  rw [oneSection_eq]
  exact closed_passes (sectionHead_loc codec h0) _

/-- The start of a section. -/
theorem readSections_open (codec : ImageCodec Img) (h0 : Header) (k : Nat) (d : Drawing Img)
    (c c' : List CodePair) (hc : ∀ q ∈ c, q.code = 999) (hc' : ∀ q ∈ c', q.code = 999)
    (op nm : CodePair) (name : Str) (hop : op.code = 0 ∧ op.value = .str str!"SECTION")
    (hnm : nm.code = 2 ∧ nm.value = .str name) (y : Stream) :
    readSections codec h0 (k + 1) d
      (toStream c ++ some (.ok op) :: (toStream c' ++ some (.ok nm) :: y)) =
    (closed (readSection codec h0 name d) str!"ENDSEC" >>= readSections codec h0 k) y := by
  conv => lhs; unfold readSections
  refine (Rd.bind_ok (next?_comments c hc op (by omega) _)).trans ?_
  dsimp only
  rw [if_pos hop.1]
  refine (Rd.bind_ok (m := Rd.lift op.assertString) (a := str!"SECTION") (s := _) (s' := _)
    (by unfold CodePair.assertString; rw [hop.2]; rfl)).trans ?_
  rw [if_neg (by decide), if_pos rfl]
  refine (Rd.bind_ok (next_comments c' hc' nm (by omega) _)).trans ?_
  obtain ⟨hnm1, hnm2⟩ := hnm
  rcases nm with ⟨cc, value, o⟩
  dsimp only at hnm1 hnm2
  subst hnm2
  change (if cc = 2 then _ else Rd.fail _ : Rd (Drawing Img)) y = _
  rw [if_pos hnm1]
  unfold closed
  rw [bind_assoc]
  congr 1
  rw [show (fun a : Drawing Img => (do expect str!"ENDSEC"; return a) >>= readSections codec h0 k) =
    fun a => (do expect str!"ENDSEC"; readSections codec h0 k a) from ?_]
  funext a
  rw [bind_assoc]
  congr 1

theorem oneSection_open (codec : ImageCodec Img) (h0 : Header) (d : Drawing Img)
    (c c' : List CodePair) (hc : ∀ q ∈ c, q.code = 999) (hc' : ∀ q ∈ c', q.code = 999)
    (op nm : CodePair) (name : Str) (hop : op.code = 0 ∧ op.value = .str str!"SECTION")
    (hnm : nm.code = 2 ∧ nm.value = .str name) (y : Stream) :
    oneSection codec h0 d (toStream c ++ some (.ok op) :: (toStream c' ++ some (.ok nm) :: y)) =
    closed (readSection codec h0 name d) str!"ENDSEC" y := by
  unfold oneSection
  refine (Rd.bind_ok (expect_run _ c hc op hop.1 hop.2 _)).trans ?_
  refine (Rd.bind_ok (next_comments c' hc' nm (by omega) _)).trans ?_
  obtain ⟨hnm1, hnm2⟩ := hnm
  rcases nm with ⟨cc, value, o⟩
  dsimp only at hnm1 hnm2
  subst hnm2
  change (if cc = 2 then _ else Rd.fail _ : Rd (Drawing Img)) y = _
  rw [if_pos hnm1]
  rfl

theorem oneSection_inv (codec : ImageCodec Img) (h0 : Header) {d d1 : Drawing Img} {s t : Stream}
    (h : oneSection codec h0 d s = (.ok d1, t)) : ∃ (c c' : List CodePair) (op nm : CodePair)
      (name : Str) (y : Stream), (∀ q ∈ c, q.code = 999) ∧ (∀ q ∈ c', q.code = 999) ∧
      (op.code = 0 ∧ op.value = .str str!"SECTION") ∧ (nm.code = 2 ∧ nm.value = .str name) ∧
      s = toStream c ++ some (.ok op) :: (toStream c' ++ some (.ok nm) :: y) ∧
      closed (readSection codec h0 name d) str!"ENDSEC" y = (.ok d1, t) := by
  obtain ⟨_, t1, h1, h2⟩ := Rd.bind_inv h
  obtain ⟨c, op, hc, rfl, hop⟩ := expect_ok h1
  obtain ⟨nm, t2, h3, h4⟩ := Rd.bind_inv h2
  obtain ⟨c', hc', rfl, hn⟩ := Rd.next_ok h3
  rcases nm with ⟨cc, value, o⟩
  cases value
  case str name =>
    change (if cc = 2 then _ else Rd.fail _ : Rd (Drawing Img)) t2 = _ at h4
    by_cases hq : cc = 2
    · rw [if_pos hq] at h4
      exact ⟨c, c', op, _, name, t2, hc, hc', hop, ⟨hq, rfl⟩, rfl, h4⟩
    · rw [if_neg hq] at h4; cases h4
  all_goals cases h4

theorem oneSection_loop (codec : ImageCodec Img) (h0 : Header) (k : Nat) (d : Drawing Img)
    (s : Stream) (d1 : Drawing Img) (t : Stream) (h : oneSection codec h0 d s = (.ok d1, t)) :
    readSections codec h0 (k + 1) d s = readSections codec h0 k d1 t := by
  obtain ⟨c, c', op, nm, name, y, hc, hc', hop, hnm, rfl, h1⟩ := oneSection_inv codec h0 h
  rw [readSections_open codec h0 k d c c' hc hc' op nm name hop hnm y]
  exact Rd.bind_ok h1

/-- Loading goes through the sections. -/
theorem load_same (codec : ImageCodec Img) (h0 : Header) (order : List Str) {s s' : Stream}
    (h : ∀ d0, new h0 order = .ok d0 →
      Same (Rd.withFuel fun k => readSections codec h0 k d0.clear) s s') :
    Same (load codec h0 order) s s' := by
  unfold load
  cases hn : new h0 order with
  | error e => intro _; exact ⟨rfl, fun a ha => by cases ha⟩
  | ok d0 =>
    exact Same.after (m := Rd.lift (.ok d0)) (a := d0) (t := s) (t' := s') rfl rfl
      (Same.bind (h d0 hn))

/-- The same section with another content. -/
theorem section_sim (codec : ImageCodec Img) (h0 : Header) (d : Drawing Img) (op nm : CodePair)
    (name : Str) (hop : op.code = 0 ∧ op.value = .str str!"SECTION")
    (hnm : nm.code = 2 ∧ nm.value = .str name) {y y' : Stream}
    (h : Same (readSection codec h0 name d) y y') (k n : Nat)
    (hc : Calm (readSections codec h0 (k + 1) d (some (.ok op) :: some (.ok nm) :: y)).1) :
    Sim (readSections codec h0 (k + 1) d (some (.ok op) :: some (.ok nm) :: y))
      (readSections codec h0 (k + 1 + n) d (some (.ok op) :: some (.ok nm) :: y')) := by
  have e1 := readSections_open codec h0 k d [] [] (by simp) (by simp) op nm name hop hnm y
  have e2 := readSections_open codec h0 (k + n) d [] [] (by simp) (by simp) op nm name hop hnm y'
  simp only [toStream_nil, List.nil_append] at e1 e2
  rw [e1] at hc ⊢
  rw [show k + 1 + n = k + n + 1 by omega, e2]
  have h2 : Same (closed (readSection codec h0 name d) str!"ENDSEC" >>= readSections codec h0 k)
      y y' := (h.bind (f := fun a => (do expect str!"ENDSEC"; return a))).bind
  refine (h2 hc).trans ?_
  have hb : Below (closed (readSection codec h0 name d) str!"ENDSEC" >>= readSections codec h0 k)
      (closed (readSection codec h0 name d) str!"ENDSEC" >>= readSections codec h0 (k + n)) :=
    .bind .rfl fun a => (readSections_mono codec h0 a).le (Nat.le_add_right k n)
  rw [hb y' ((h2 hc).calm hc)]
  exact .refl

/-- A place inside a file at which the content of a section is changed. -/
theorem inside_same (codec : ImageCodec Img) (h0 : Header) (order : List Str) {u : Stream}
    {op nm : CodePair} {name : Str} (hop : op.code = 0 ∧ op.value = .str str!"SECTION")
    (hnm : nm.code = 2 ∧ nm.value = .str name) {y y' : Stream} {d : Drawing Img}
    (hl : y.length ≤ y'.length) (hfi : Fine false (u ++ some (.ok op) :: some (.ok nm) :: y))
    (hh : ∀ d0, new h0 order = .ok d0 → Steps (oneSection codec h0) d0.clear
      (u ++ some (.ok op) :: some (.ok nm) :: y) d (some (.ok op) :: some (.ok nm) :: y))
    (h : Same (readSection codec h0 name d) y y') :
    Same (load codec h0 order) (u ++ some (.ok op) :: some (.ok nm) :: y)
      (u ++ some (.ok op) :: some (.ok nm) :: y') :=
  load_same codec h0 order fun d0 hn =>
    Steps.same (oneSection_passes codec h0) (f := readSections codec h0)
      (oneSection_loop codec h0) (q := op) (q' := op) trivial trivial (by simpa using hl)
      (hh d0 hn) hfi fun k hc => by
        exact section_sim codec h0 d op nm name hop hnm h k _ hc

/-! ### Unknown sections -/

theorem swallow_section (content : List CodePair) (cl : CodePair)
    (hcl : cl.code = 0 ∧ cl.value = .str str!"ENDSEC")
    (hcon : ∀ p ∈ content, p.code = 0 → ∃ y, p.value = .str y ∧ y ≠ str!"ENDSEC") (b : Stream) :
    ∀ k, content.length < k → swallowSection k (toStream content ++ some (.ok cl) :: b) =
      (.ok (), some (.ok cl) :: b) := by
  induction content with
  | nil =>
    intro k hk
    obtain ⟨k, rfl⟩ : ∃ m, k = m + 1 := ⟨k - 1, by simp at hk; omega⟩
    unfold swallowSection
    refine (Rd.bind_ok (Rd.next?_cons (by omega) b)).trans ?_
    dsimp only
    rw [if_pos hcl.1]
    refine (Rd.bind_ok (m := Rd.lift cl.assertString) (a := str!"ENDSEC") (s := b) (s' := b)
      (by unfold CodePair.assertString; rw [hcl.2]; rfl)).trans ?_
    rw [if_pos rfl]
    rfl
  | cons p content ih =>
    intro k hk
    obtain ⟨k, rfl⟩ : ∃ m, k = m + 1 := ⟨k - 1, by simp at hk; omega⟩
    have ih' := ih (fun q hq => hcon q (by simp [hq])) k (by simpa using hk)
    by_cases h9 : p.code = 999
    · have h1 := ih (fun q hq => hcon q (by simp [hq])) (k + 1) (by simp at hk; omega)
      rw [← h1, toStream_cons, List.cons_append]
      unfold swallowSection
      rw [Rd.run_bind, Rd.run_bind]
      have : Rd.next? (some (.ok p) :: (toStream content ++ some (.ok cl) :: b)) =
          Rd.next? (toStream content ++ some (.ok cl) :: b) := by
        unfold Rd.next?
        rw [Stream.next, if_pos (by simpa [isComment] using h9)]
      rw [this]
    · unfold swallowSection
      refine (Rd.bind_ok (Rd.next?_cons h9 _)).trans ?_
      dsimp only
      by_cases hp : p.code = 0
      · rw [if_pos hp]
        obtain ⟨y, hy, hne⟩ := hcon p (by simp) hp
        refine (Rd.bind_ok (m := Rd.lift p.assertString) (a := y) (s := _) (s' := _)
          (by unfold CodePair.assertString; rw [hy]; rfl)).trans ?_
        rw [if_neg hne]
        exact ih'
      · rw [if_neg hp]
        exact ih'

theorem readSection_unknown (codec : ImageCodec Img) (h0 : Header) (d : Drawing Img) (x : Str)
    (hx : x ∉ [str!"HEADER", str!"CLASSES", str!"TABLES", str!"BLOCKS", str!"ENTITIES",
      str!"OBJECTS", str!"THUMBNAILIMAGE"]) :
    readSection codec h0 x d = (do Rd.withFuel swallowSection; return d) := by
  simp only [List.mem_cons, List.not_mem_nil, or_false, not_or] at hx
  obtain ⟨h1, h2, h3, h4, h5, h6, h7⟩ := hx
  unfold readSection
  rw [if_neg h1, if_neg h2, if_neg h3, if_neg h4, if_neg h5, if_neg h6, if_neg h7]

theorem oneSection_unknown (codec : ImageCodec Img) (h0 : Header) (d : Drawing Img)
    {U : List CodePair} (hU : UnknownSection U) (b : Stream) :
    oneSection codec h0 d (toStream U ++ b) = (.ok d, b) := by
  obtain ⟨op, nm, cl, x, content, hop, hnm, hx, hcl, hcon⟩ := hU
  have e := oneSection_open codec h0 d [] [] (by simp) (by simp) op nm x hop hnm
    (toStream content ++ some (.ok cl) :: b)
  have : toStream (op :: nm :: content ++ [cl]) ++ b = toStream [] ++ some (.ok op) ::
      (toStream [] ++ some (.ok nm) :: (toStream content ++ some (.ok cl) :: b)) := by
    simp [toStream]
  rw [this, e]
  refine closed_run (c := []) (by simp) hcl.1 hcl.2 ?_
  rw [readSection_unknown codec h0 d x hx]
  refine (Rd.bind_ok (a := ()) (s' := some (.ok cl) :: b) ?_).trans ?_
  · rw [Rd.run_withFuel]
    exact swallow_section content cl hcl hcon b _ (by simp [toStream]; omega)
  · rfl

/-- An unknown section is skipped. -/
theorem load_section (codec : ImageCodec Img) (h0 : Header) (order : List Str) {u : Stream}
    {q : CodePair} {z : Stream} {U : List CodePair} (hU : UnknownSection U) {d : Drawing Img}
    (hfi : Fine false (u ++ some (.ok q) :: z))
    (hh : ∀ d0, new h0 order = .ok d0 →
      Steps (oneSection codec h0) d0.clear (u ++ some (.ok q) :: z) d (some (.ok q) :: z)) :
    Same (load codec h0 order) (u ++ some (.ok q) :: z) (u ++ (toStream U ++ some (.ok q) :: z)) := by
  refine load_same codec h0 order fun d0 hn => ?_
  have hone := oneSection_unknown codec h0 d hU (some (.ok q) :: z)
  obtain ⟨op, nm, cl, x, content, hop, hnm, hx, hcl, hcon⟩ := hU
  rw [show toStream (op :: nm :: content ++ [cl]) ++ some (.ok q) :: z = some (.ok op) ::
    (toStream (nm :: content ++ [cl]) ++ some (.ok q) :: z) by simp [toStream]] at hone ⊢
  refine Steps.same (oneSection_passes codec h0) (f := readSections codec h0)
    (oneSection_loop codec h0) (q := q) (q' := op) trivial trivial ?_ (hh d0 hn) hfi fun k hc => ?_
  · simp only [List.length_append, List.length_cons, toStream_length]
    omega
  · exact skip_sim (g := oneSection codec h0) (f := readSections codec h0) (oneSection_loop codec h0)
      (readSections_mono codec h0) hone
      (by simp only [List.length_append, List.length_cons, toStream_length]; omega) hc

end Drawing

end Dxf
