import Verif.Spec.Reload
import Verif.Lemmas.InsertFile
import Verif.Lemmas.Until
import Verif.Props.Header
import Verif.Props.Tables
import Verif.Props.Class
import Verif.Props.Block
import Verif.Props.Collect
import Verif.Props.Objects
import Verif.Props.Thumbnail

/-! What loading does with the content of a file. -/

namespace Dxf

namespace Drawing

variable {Img : Type}

/-- Adds the entries of some tables. -/
def fill (p : Drawing Img) (ts : List TName) (d : Drawing Img) : Except DxfErr (Drawing Img) :=
  ts.foldlM (fun d t => (p.tables t).foldlM (addRead t) d) d

/-- The header and classes alone. -/
def outline (p : Drawing Img) : Drawing Img where
  header := p.header
  classes := p.classes
  tables := fun _ => []
  blocks := []
  entities := []
  objects := []
  thumbnail := none

/-- Adds the contents of `p`, in the order of a file. -/
def assemble (p : Drawing Img) : Except DxfErr (Drawing Img) := do
  let d ← p.fill TName.all p.outline
  let d ← p.blocks.foldlM addReadBlock d
  let d ← p.entities.foldlM addReadEntity d
  let d ← p.objects.foldlM addReadObject d
  return { d with thumbnail := p.thumbnail }

/-! ### Loops -/

/-- The loop over the items of a section gets from `d`, `s` to `d'`, `s'`. -/
def ItemsTo (type : Str) (callback : Drawing Img → Rd (Drawing Img)) (d : Drawing Img) (s : Stream)
    (d' : Drawing Img) (s' : Stream) : Prop :=
  ∃ n, n + s'.length ≤ s.length ∧
    ∀ k, readItems type callback (k + n) d s = readItems type callback k d' s'

theorem ItemsTo.refl {type : Str} {callback : Drawing Img → Rd (Drawing Img)} {d : Drawing Img}
    {s : Stream} : ItemsTo type callback d s d s := ⟨0, by omega, fun _ => rfl⟩

theorem ItemsTo.trans {type : Str} {callback : Drawing Img → Rd (Drawing Img)}
    {d d' d'' : Drawing Img} {s s' s'' : Stream} (h : ItemsTo type callback d s d' s')
    (h' : ItemsTo type callback d' s' d'' s'') : ItemsTo type callback d s d'' s'' := by
  obtain ⟨n, h1, h2⟩ := h
  obtain ⟨m, h3, h4⟩ := h'
  exact ⟨m + n, by omega, fun k => by rw [← Nat.add_assoc, h2, h4]⟩

/-- One item. -/
theorem ItemsTo.one {type : Str} (ht : type ≠ str!"ENDSEC")
    {callback : Drawing Img → Rd (Drawing Img)} {d d' : Drawing Img} {s s' : Stream}
    (h : callback d s = (.ok d', s')) (hl : s'.length ≤ s.length) :
    ItemsTo type callback d (some (.ok (.newStr 0 type)) :: s) d' s' := by
  refine ⟨1, by simp; omega, fun k => ?_⟩
  conv => lhs; unfold readItems
  refine (Rd.bind_ok (Rd.next_cons (by simp [CodePair.newStr]) s)).trans ?_
  refine (Rd.bind_ok (m := Rd.lift (.ok type)) (a := type) (s' := s) rfl).trans ?_
  rw [if_neg ht, if_pos rfl]
  exact Rd.bind_ok h

/-- The end of the items. -/
theorem ItemsTo.done {type : Str} {callback : Drawing Img → Rd (Drawing Img)} {d d' : Drawing Img}
    {s s' : Stream}
    (h : ItemsTo type callback d s d' (some (.ok (.newStr 0 str!"ENDSEC")) :: s')) :
    (Rd.withFuel fun fuel => readItems type callback fuel d) s =
      (.ok d', some (.ok (.newStr 0 str!"ENDSEC")) :: s') := by
  obtain ⟨n, h1, h2⟩ := h
  rw [Rd.run_withFuel]
  rw [List.length_cons] at h1
  obtain ⟨k, hk⟩ : ∃ k, s.length + 1 = (k + 1) + n := ⟨s.length - n, by omega⟩
  rw [hk, h2]
  unfold readItems
  refine (Rd.bind_ok (Rd.next_cons (by decide) s')).trans ?_
  rfl

/-- The loop over the sections gets from `d`, `s` to `d'`, `s'`; if `quiet` holds nothing on the
way makes the iterator read UTF-8. -/
def SectionsTo (quiet : Prop) (codec : ImageCodec Img) (h0 : Header) (d : Drawing Img) (s : Stream)
    (d' : Drawing Img) (s' : Stream) : Prop :=
  ∃ n, n + s'.length ≤ s.length ∧
    ∀ k, readSections codec h0 (k + n) d s = readSections codec h0 k d' s' ∧
      (quiet → readSectionsUntil codec h0 (k + n) d s = readSectionsUntil codec h0 k d' s')

theorem SectionsTo.refl {quiet : Prop} {codec : ImageCodec Img} {h0 : Header} {d : Drawing Img}
    {s : Stream} : SectionsTo quiet codec h0 d s d s := ⟨0, by omega, fun _ => ⟨rfl, fun _ => rfl⟩⟩

theorem SectionsTo.trans {quiet : Prop} {codec : ImageCodec Img} {h0 : Header}
    {d d' d'' : Drawing Img} {s s' s'' : Stream} (h : SectionsTo quiet codec h0 d s d' s')
    (h' : SectionsTo quiet codec h0 d' s' d'' s'') : SectionsTo quiet codec h0 d s d'' s'' := by
  obtain ⟨n, h1, h2⟩ := h
  obtain ⟨m, h3, h4⟩ := h'
  refine ⟨m + n, by omega, fun k => ⟨?_, fun hq => ?_⟩⟩
  · rw [← Nat.add_assoc, (h2 _).1, (h4 _).1]
  · rw [← Nat.add_assoc, (h2 _).2 hq, (h4 _).2 hq]

/-- One section. -/
theorem SectionsTo.ofUntil {quiet : Prop} {codec : ImageCodec Img} {h0 : Header}
    {d d' : Drawing Img} {name : Str} {body : List CodePair} {s : Stream}
    (h : readSection codec h0 name d (toStream body ++ some (.ok (.newStr 0 str!"ENDSEC")) :: s) =
      (.ok d', some (.ok (.newStr 0 str!"ENDSEC")) :: s))
    (hu : quiet → readSectionUntil codec h0 name d
        (toStream body ++ some (.ok (.newStr 0 str!"ENDSEC")) :: s) =
      (.ok (some d'), some (.ok (.newStr 0 str!"ENDSEC")) :: s)) :
    SectionsTo quiet codec h0 d (toStream (inSection name body) ++ s) d' s := by
  refine ⟨1, by simp [inSection]; omega, fun k => ⟨?_, fun hq => ?_⟩⟩
  · have e : toStream (inSection name body) ++ s = toStream [] ++
        some (.ok (.newStr 0 str!"SECTION")) :: (toStream [] ++ some (.ok (.newStr 2 name)) ::
          (toStream body ++ some (.ok (.newStr 0 str!"ENDSEC")) :: s)) := by
      simp [inSection, toStream]
    rw [e, readSections_open codec h0 k d [] [] (by simp) (by simp) _ _ name ⟨rfl, rfl⟩ ⟨rfl, rfl⟩]
    exact Rd.bind_ok (closed_run (c := []) (e := .newStr 0 str!"ENDSEC") (by simp) rfl rfl h)
  · have e : toStream (inSection name body) ++ s =
        some (.ok (.newStr 0 str!"SECTION")) :: some (.ok (.newStr 2 name)) ::
          (toStream body ++ some (.ok (.newStr 0 str!"ENDSEC")) :: s) := by
      simp [inSection, toStream]
    rw [e, CodePair.newStr, CodePair.newStr, readSectionsUntil_open]
    refine (Rd.bind_ok (hu hq)).trans ?_
    exact Rd.bind_ok (expect_run str!"ENDSEC" [] (by simp) (.newStr 0 str!"ENDSEC") rfl rfl s)

/-- One section other than the header. -/
theorem SectionsTo.one {quiet : Prop} {codec : ImageCodec Img} {h0 : Header} {d d' : Drawing Img}
    {name : Str} {body : List CodePair} {s : Stream}
    (h : readSection codec h0 name d (toStream body ++ some (.ok (.newStr 0 str!"ENDSEC")) :: s) =
      (.ok d', some (.ok (.newStr 0 str!"ENDSEC")) :: s))
    (hn : name ≠ str!"HEADER" := by decide) :
    SectionsTo quiet codec h0 d (toStream (inSection name body) ++ s) d' s :=
  .ofUntil h fun _ => readSectionUntil_other hn h

/-- The end of the file. -/
theorem SectionsTo.done {quiet : Prop} {codec : ImageCodec Img} {h0 : Header} {d d' : Drawing Img}
    {s : Stream} (h : SectionsTo quiet codec h0 d s d' (toStream [.newStr 0 str!"EOF"])) :
    (Rd.withFuel fun fuel => readSections codec h0 fuel d) s =
      (.ok d', toStream [.newStr 0 str!"EOF"]) ∧
    (quiet → (Rd.withFuel fun fuel => readSectionsUntil codec h0 fuel d) s = (.ok false, [])) := by
  obtain ⟨n, h1, h2⟩ := h
  rw [Rd.run_withFuel, Rd.run_withFuel]
  rw [toStream_length, List.length_singleton] at h1
  obtain ⟨k, hk⟩ : ∃ k, s.length + 1 = (k + 1) + n := ⟨s.length - n, by omega⟩
  rw [hk]
  refine ⟨?_, fun hq => ?_⟩
  · rw [(h2 _).1]
    unfold readSections
    refine (Rd.bind_ok (Rd.next?_cons (p := .newStr 0 str!"EOF") (by decide) [])).trans ?_
    rfl
  · rw [(h2 _).2 hq]
    unfold readSectionsUntil
    refine (Rd.bind_ok (Rd.next?_cons (p := .newStr 0 str!"EOF") (by decide) [])).trans ?_
    rfl

theorem load_done {quiet : Prop} {codec : ImageCodec Img} {h0 : Header} {order : List Str}
    {d0 d : Drawing Img} {s : Stream} (hn : new h0 order = .ok d0)
    (h : SectionsTo quiet codec h0 d0.clear s d (toStream [.newStr 0 str!"EOF"])) :
    load codec h0 order s = (.ok d, []) ∧
      (quiet → loadUntil codec h0 order s = (.ok false, [])) := by
  constructor
  · unfold load
    rw [hn]
    refine (Rd.bind_ok (m := Rd.lift (.ok d0)) (a := d0) (s' := s) rfl).trans ?_
    refine (Rd.bind_ok h.done.1).trans ?_
    unfold finish
    refine (Rd.bind_ok (Rd.next?_cons (p := .newStr 0 str!"EOF") (by decide) [])).trans ?_
    rfl
  · intro hq
    unfold loadUntil
    rw [hn]
    exact (Rd.bind_ok (m := Rd.lift (.ok d0)) (a := d0) (s' := s) rfl).trans (h.done.2 hq)

end Drawing

end Dxf
