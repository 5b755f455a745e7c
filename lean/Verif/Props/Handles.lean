import Verif.Lemmas.Handles
import Verif.Model.Dxb
import Verif.Props.Change

/-! Files without handles do not depend on the handles (C76). -/

namespace Dxf

variable {Img : Type}

open Drawing

theorem oneTable_alike {d d' : Drawing Img} (h : d.Alike d') (hw : d.writeHandles = false)
    (hv : d'.version = d.version) (hw' : d'.writeHandles = false) (t : TName) :
    d'.oneTable t = d.oneTable t := by
  have ht := h.tables t
  rw [oneTable, oneTable, hv, hw, hw', TableKind.pairs, TableKind.pairs]
  have he : (d'.tables t).isEmpty = (d.tables t).isEmpty := isEmpty_alike ht
  have hf : (d'.tables t).flatMap (t.kind.itemPairs d.version false) =
      (d.tables t).flatMap (t.kind.itemPairs d.version false) := by
    refine flatMap_alike ht ?_
    rintro a _ ⟨x, rfl⟩
    exact t.pairs_alike _ _ _
  rw [he, hf]

/-- What is written for the drawings is the same but for the next handle. -/
theorem codePairs_alike (codec : ImageCodec Img) {d d' : Drawing Img} (h : d.Alike d')
    (hv : ¬ .r13 ≤ d.version) (hh : (d.header 140 : Bool) = false) :
    d.codePairs codec = .ok (d.header.pairs ++ d.classPairs ++ d.tablePairs ++ d.blockPairs ++
      d.entityPairs ++ [.newStr 0 str!"EOF"]) ∧
    d'.codePairs codec = .ok (d'.header.pairs ++ d.classPairs ++ d.tablePairs ++ d.blockPairs ++
      d.entityPairs ++ [.newStr 0 str!"EOF"]) := by
  have ev : d'.version = d.version := h.header 0 (by decide)
  have eh : (d'.header 140 : Bool) = false := (h.header 140 (by decide)).trans hh
  have w : d.writeHandles = false := by
    rw [writeHandles, hh]
    simpa using hv
  have w' : d'.writeHandles = false := by
    rw [writeHandles, eh, ev]
    simpa using hv
  have hv2 : ¬ .r2000 ≤ d.version := by
    revert hv
    cases d.version <;> decide
  have plain : ∀ x : Drawing Img, x.version = d.version → x.codePairs codec =
      .ok (x.header.pairs ++ x.classPairs ++ x.tablePairs ++ x.blockPairs ++ x.entityPairs ++
        [.newStr 0 str!"EOF"]) := by
    intro x hx
    refine (codePairs_of (os := []) (ts := []) ?_ ?_).trans (congrArg _ (by simp))
    · rw [objectPairs, hx, if_neg hv]
      rfl
    · rw [thumbnailPairs, hx, if_neg hv2]
  refine ⟨plain d rfl, (plain d' ev).trans ?_⟩
  have e1 : d'.classPairs = d.classPairs := by rw [classPairs, classPairs, ev, h.classes]
  have e2 : d'.tablePairs = d.tablePairs := by
    rw [tablePairs, tablePairs]
    exact congrArg _ (congrArg (fun f => List.flatMap f TName.all)
      (funext fun t => oneTable_alike h w ev w' t))
  have e3 : d'.blockPairs = d.blockPairs := by
    have he : d'.blocks.isEmpty = d.blocks.isEmpty := isEmpty_alike h.blocks
    rw [blockPairs, blockPairs, ev, w, w', he, flatMap_alike h.blocks fun a b h => Block.pairs_alike hv h]
  have e4 : d'.entityPairs = d.entityPairs := by
    rw [entityPairs, entityPairs, ev, w, w', flatMap_alike h.entities fun a b h => Entity.pairs_alike hv h]
  rw [e1, e2, e3, e4]

/-- C76: before R13, and when handles are not enabled, drawings that differ in their handles only have
files that differ in the value of `$HANDSEED` only. -/
theorem C76_file (codec : ImageCodec Img) {d d' : Drawing Img} (h : d.Alike d')
    (hv : ¬ .r13 ≤ d.version) (hh : (d.header 140 : Bool) = false) :
    ∃ before x x' behind,
      d.codePairs codec = .ok (before ++ [.newStr 9 str!"$HANDSEED", x] ++ behind) ∧
      d'.codePairs codec = .ok (before ++ [.newStr 9 str!"$HANDSEED", x'] ++ behind) := by
  obtain ⟨h1, h2⟩ := codePairs_alike codec h hv hh
  obtain ⟨a, b, hp⟩ := header_part (i := 141) (by decide) d.header
  obtain ⟨x, hx⟩ := header_seed d.header.version (d.header 141)
  obtain ⟨x', hx'⟩ := header_seed d.header.version (d'.header 141)
  have hs : Rec.set d.header 141 (d.header 141) = d.header := by
    funext i
    by_cases hi : i = 141
    · subst hi
      rw [Rec.set_self]
    · rw [Rec.set_ne _ _ hi]
  have hs' : Rec.set d.header 141 (d'.header 141) = d'.header := by
    funext i
    by_cases hi : i = 141
    · subst hi
      rw [Rec.set_self]
    · rw [Rec.set_ne _ _ hi, h.header i hi]
  have hp0 := hp (d.header 141)
  have hp1 := hp (d'.header 141)
  rw [hs, hx] at hp0
  rw [hs', hx'] at hp1
  refine ⟨a, x, x', b ++ d.classPairs ++ d.tablePairs ++ d.blockPairs ++ d.entityPairs ++
    [.newStr 0 str!"EOF"], h1.trans (congrArg _ ?_), h2.trans (congrArg _ ?_)⟩
  · rw [hp0]
    simp
  · rw [hp1]
    simp

/-- C76: if the next handle is the same too, the files are the same byte by byte. -/
theorem C76_bytes (codec : ImageCodec Img) {d d' : Drawing Img} (h : d.Alike d')
    (hv : ¬ .r13 ≤ d.version) (hh : (d.header 140 : Bool) = false)
    (hn : d'.header 141 = d.header 141) :
    d'.saveText codec = d.saveText codec ∧ d'.saveBinary codec = d.saveBinary codec := by
  obtain ⟨h1, h2⟩ := codePairs_alike codec h hv hh
  have e : d'.header = d.header := by
    funext i
    by_cases hi : i = 141
    · subst hi
      exact hn
    · exact h.header i hi
  have ev : d'.version = d.version := h.header 0 (by decide)
  rw [e, ← h1] at h2
  constructor
  · rw [saveText, saveText, h2, ev]
  · rw [saveBinary, saveBinary, h2, ev]

theorem dxb_entity_alike {e e' : Entity} (h : e.Alike e') : Dxb.entity e' = Dxb.entity e ∧
    e'.layer = e.layer ∧ Dxb.color e' = Dxb.color e := by
  obtain ⟨⟨hd, hf⟩, hu⟩ := h
  obtain ⟨⟨k, s, x⟩, ex⟩ := e
  obtain ⟨f', ex'⟩ := e'
  change f' = _ at hf
  subst hf
  change ex'.unhandled = ex.unhandled at hu
  have hw : ex'.verts.map (fun a => { a with handle := 0#64 }) =
      ex.verts.map fun a => { a with handle := 0#64 } := congrArg Extra.verts hu
  have hv : ex'.verts.flatMap (fun v => Dxb.vertex v.fields) =
      ex.verts.flatMap fun v => Dxb.vertex v.fields := by
    have := congrArg (List.flatMap fun v : Vert => Dxb.vertex v.fields) hw
    rwa [List.flatMap_map, List.flatMap_map] at this
  refine ⟨?_, ?_, ?_⟩
  · unfold Entity.setHandle Dxb.entity
    cases k
    case polyline => exact congrArg (fun l => _ ++ l ++ Dxb.item 17) hv
    all_goals rfl
  · cases k <;> rfl
  · cases k <;> rfl

/-- C76: handles do not matter for DXB files, whatever the version. -/
theorem C76_dxb {d d' : Drawing Img} (h : d.Alike d') : d'.saveDxb = d.saveDxb := by
  have key : ∀ {l l' : List Entity}, List.Forall₂ Entity.Alike l l' → ∀ a b,
      Dxb.entities a b l' = Dxb.entities a b l := by
    intro l l' hl
    induction hl with
    | nil => intros; rfl
    | cons h1 _ ih =>
      intro a b
      obtain ⟨e1, e2, e3⟩ := dxb_entity_alike h1
      rw [Dxb.entities, Dxb.entities, e1, e2, e3, ih]
  have he := h.entities
  have hb := h.blocks
  rw [saveDxb, saveDxb]
  revert he hb
  generalize d.entities = l
  generalize d'.entities = l'
  generalize d.blocks = m
  generalize d'.blocks = m'
  intro he hb
  have hk := key he none 0#16
  cases he with
  | nil => rfl
  | cons h1 h2 =>
    cases hb with
    | nil => dsimp only; rw [hk]
    | cons h3 h4 =>
      obtain ⟨⟨hd, h3⟩, h5⟩ := h3
      dsimp only
      rw [flatMap_alike h5 fun a b h => (dxb_entity_alike h).1, h3]
      rfl

/-- C76: when handles are enabled, they are written before R13 too. -/
theorem C76_needed : ∃ e e' : Entity, e.Alike e' ∧ e'.pairs .r12 true ≠ e.pairs .r12 true := by
  refine ⟨(EName.plain .line).setHandle 1#64, (EName.plain .line).setHandle 2#64,
    ⟨⟨2#64, ?_⟩, rfl⟩, ?_⟩
  · refine congrArg (fun r => Flat.mk EName.line _ ⟨r, [], []⟩) ?_
    funext i
    by_cases hi : i = 0
    · subst hi
      rfl
    · exact (Rec.set_ne _ _ hi).trans ((Rec.set_ne _ _ hi).trans
        (Rec.set_ne (i := 0) EName.line.plain.entry.fields (1#64 : Handle) hi)).symm
  · decide +kernel

/-- The hypotheses hold for a drawing with a line and a polyline with a vertex, all of which get other
handles. -/
example (h1 h2 h3 h4 : Handle) (img : Option Img) :
    let pl (a : Handle) : Entity := ⟨EName.polyline.plain.toFlat, { Extra.dflt with
      verts := [⟨Rec.dflt _, a⟩] }⟩
    let dr (l : List Entity) (n : Handle) : Drawing Img := {
      header := Rec.set (Rec.set (Rec.dflt Header.decls) 140 false) 141 n
      classes := [], tables := fun _ => [], blocks := [], entities := l, objects := []
      thumbnail := img }
    let d := dr [EName.line.plain, pl 3#64] 4#64
    let d' := dr [EName.line.plain.setHandle h1, (pl h2).setHandle h3] h4
    d.Alike d' ∧ ¬ .r13 ≤ d.version ∧ (d.header 140 : Bool) = false := by
  refine ⟨⟨fun i hi => ?_, rfl, fun t => .nil, .nil, .cons ⟨⟨h1, rfl⟩, rfl⟩
    (.cons ⟨⟨h3, rfl⟩, rfl⟩ .nil), rfl⟩, ?_, rfl⟩
  · exact (Rec.set_ne _ _ hi).trans (Rec.set_ne _ _ hi).symm
  · change ¬ Version.r13 ≤ Header.version (Rec.set (Rec.set (Rec.dflt Header.decls) 140 false) 141 _)
    change ¬ Version.r13 ≤ (Header.version (Rec.dflt Header.decls))
    decide +kernel

end Dxf
