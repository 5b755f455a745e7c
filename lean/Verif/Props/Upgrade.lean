import Verif.Lemmas.Upgrade
import Verif.Props.Lookup

/-! Saving a drawing in a newer version: C64. -/

namespace Dxf

open Drawing

variable {Img : Type} {codec : ImageCodec Img} {h0 : Header} {d : Drawing Img}

theorem version_withVersion (w : Version) : (d.withVersion w).version = w := rfl

theorem withVersion_header (w : Version) {i : Nat} (hi : i ≠ 0) :
    d.header i = (d.withVersion w).header i := (Rec.set_ne (ds := Header.decls) (i := 0) d.header w hi).symm

theorem withVersion_handles {v w : Version} (hv : d.version = v) (hvw : v ≤ w)
    (h : d.writeHandles = true) : (d.withVersion w).writeHandles = true := by
  unfold writeHandles at *
  refine (Bool.or_eq_true _ _).mpr ?_
  rcases (Bool.or_eq_true _ _).mp h with h | h
  · left
    have := of_decide_eq_true h
    rw [hv] at this
    exact decide_eq_true (Nat.le_trans this hvw)
  · exact .inr h

theorem withVersion_next (w : Version) : (d.withVersion w).next = d.next := rfl

/-- C64: a drawing is saved, and saved again after setting a newer version, and both files are
loaded.  Whatever is there from the first file is there from the second one: each item at its
handle, and its fields, except those that were given up in between (`ends`, `until`), the header
variables, the classes and the thumbnail.  (Partial: for drawings as in C41 and C42 in both
versions.) -/
theorem C64_partial (hfr : h0.Fresh) (order : List Str) (ho : 41 + 2 * order.length < 2 ^ 64)
    {w : Version} (hvw : d.version ≤ w) (hf : d.Faithful codec) (hf' : (d.withVersion w).Faithful codec)
    (hroom : d.next.toNat + d.demand < 2 ^ 64) (hs : d.Sound) (hp : 0#64 < d.next)
    (hw : d.writeHandles = true) :
    ∃ ps d1 ps' d2, d.codePairs codec = .ok ps ∧ load codec h0 order (toStream ps) = (.ok d1, []) ∧
      (d.withVersion w).codePairs codec = .ok ps' ∧
      load codec h0 order (toStream ps') = (.ok d2, []) ∧
      (∀ h x, d.itemByHandle h = some x → x.Filed d.version → w ≤ x.ends →
        ∃ y z, d1.itemByHandle h = some y ∧ d2.itemByHandle h = some z ∧
          x.Outlives d.version w y z) ∧
      (∀ i, i ≠ 0 → i ≠ 141 → w ≤ Header.until i → Representable Header.known d.version d.header i →
        Representable Header.known w d.header i → d1.header i = d.header i →
        d2.header i = d.header i) ∧
      (∀ (n : Nat) x, d.classes[n]? = some x → ∃ y z, d1.classes[n]? = some y ∧ d2.classes[n]? = some z ∧
        Class.Outlives w x y z) ∧
      (d1.thumbnail = d.thumbnail → d2.thumbnail = d.thumbnail) := by
  obtain ⟨ps, d1, h1, h2, f1, -⟩ := C53_partial hfr order ho hf hroom hs hp hw
  obtain ⟨ps', d2, k1, k2, f2, -⟩ := C53_partial hfr order ho hf' hroom hs hp
    (withVersion_handles rfl hvw hw)
  obtain ⟨q, p, e, g1, g2, g3, g4⟩ := C42_partial hfr order ho hf hroom
  obtain ⟨q', p', e', j1, j2, j3, j4⟩ := C42_partial hfr order ho hf' hroom
  obtain rfl := Except.ok.inj (h1.symm.trans g1)
  obtain rfl := Except.ok.inj (k1.symm.trans j1)
  obtain rfl := Except.ok.inj (congrArg Prod.fst (h2.symm.trans g2))
  obtain rfl := Except.ok.inj (congrArg Prod.fst (k2.symm.trans j2))
  refine ⟨_, _, _, _, h1, h2, k1, k2, fun h x hx hfx he => ?_, fun i h0 hi hu r1 r2 hk => ?_,
    fun n x hx => ?_, fun ht => ?_⟩
  · obtain ⟨y, hy, hxy⟩ := f1 h x hx hfx
    obtain ⟨z, hz, hxz⟩ := f2 h x hx (hfx.later hvw he)
    exact ⟨y, z, hy, hz, item_outlives hvw hxy hxz⟩
  · rw [g4.header i hi] at hk
    rw [j4.header i hi]
    have e := withVersion_header (d := d) w h0
    exact header_outlives hvw hu e (g3.header i r1) (j3.header i (header_representable e r2)) hk
  · refine ⟨Class.visible d.version x, Class.visible w x, ?_, ?_, ?_⟩
    · rw [g4.classes, g3.classes, List.getElem?_map, hx]
      rfl
    · rw [j4.classes, j3.classes, List.getElem?_map]
      exact congrArg (Option.map _) hx
    · exact class_outlives hvw x
  · rw [g4.thumbnail, g3.thumbnail] at ht
    rw [j4.thumbnail, j3.thumbnail]
    change (if .r2000 ≤ w then d.thumbnail else none) = _
    split at ht
    · rename_i h
      rw [if_pos (show Version.r2000 ≤ w from Nat.le_trans h hvw)]
    · rw [← ht]
      split <;> rfl

/-- C64 fails for elevations: files of R12 and before contain them, and from later ones every entity
other than a light-weight polyline comes back with the default one. -/
theorem C64_elevation (hfr : h0.Fresh) (order : List Str) (ho : 41 + 2 * order.length < 2 ^ 64)
    {w : Version} (hvw : .r13 ≤ w) (hf : (d.withVersion w).Faithful codec)
    (hroom : d.next.toNat + d.demand < 2 ^ 64) (hs : d.Sound) (hp : 0#64 < d.next) {e : Entity}
    (he : e ∈ d.entities) (hk : e.kind ≠ .lwPolyline) (hsup : e.kind.supported w = true) :
    ∃ ps d2 e', (d.withVersion w).codePairs codec = .ok ps ∧
      load codec h0 order (toStream ps) = (.ok d2, []) ∧
      d2.itemByHandle e.handle = some (.entity e') ∧
      e'.entry.fields 5 = Rec.dflt e'.kind.decls 5 := by
  obtain ⟨ps, d2, k1, k2, f2, -⟩ := C53_partial hfr order ho hf hroom hs hp
    (by unfold writeHandles; rw [version_withVersion, decide_eq_true hvw]; rfl)
  have hst : (d.withVersion w).Stores (.entity e) := he
  obtain ⟨z, hz, e', rfl, b, hb, x', -, rfl⟩ := f2 e.handle _ 
    ((itemByHandle_iff (d := d.withVersion w) hs _ _).mpr ⟨hst, rfl⟩) hsup
  exact ⟨ps, d2, _, k1, k2, hz, elevation_dropped hk hvw hb⟩

/-- C64 fails for text along an arc and for remote text: they are lost in versions after R2000. -/
theorem C64_kinds (hfr : h0.Fresh) (order : List Str) (ho : 41 + 2 * order.length < 2 ^ 64)
    {w : Version} (hv : d.version = .r2000) (hw : .r2004 ≤ w) (hf : d.Faithful codec)
    (hf' : (d.withVersion w).Faithful codec)
    (hroom : d.next.toNat + d.demand < 2 ^ 64) (hs : d.Sound) (hp : 0#64 < d.next) {e : Entity}
    (he : e ∈ d.entities) (hk : e.kind = .arcAlignedText ∨ e.kind = .rText) :
    ∃ ps d1 ps' d2, d.codePairs codec = .ok ps ∧ load codec h0 order (toStream ps) = (.ok d1, []) ∧
      (d.withVersion w).codePairs codec = .ok ps' ∧
      load codec h0 order (toStream ps') = (.ok d2, []) ∧
      (∃ e', d1.itemByHandle e.handle = some (.entity e') ∧ e'.kind = e.kind) ∧
      d2.itemByHandle e.handle = none := by
  obtain ⟨ps, d1, h1, h2, f1, -⟩ := C53_partial hfr order ho hf hroom hs hp
    (by unfold writeHandles; rw [hv]; rfl)
  obtain ⟨ps', d2, k1, k2, -, f2⟩ := C53_partial hfr order ho hf' hroom hs hp
    (by unfold writeHandles; rw [version_withVersion, decide_eq_true (show Version.r13 ≤ w from Nat.le_trans (by decide) hw)]; rfl)
  have hst : d.Stores (.entity e) := he
  have hi := (itemByHandle_iff hs e.handle _).mpr ⟨hst, rfl⟩
  refine ⟨ps, d1, ps', d2, h1, h2, k1, k2, ?_, ?_⟩
  · obtain ⟨y, hy, e', rfl, b, hb, x', -, rfl⟩ := f1 e.handle _ hi (by
      change e.kind.supported d.version = true
      rw [hv]
      rcases hk with hk | hk <;> rw [hk] <;> rfl)
    exact ⟨_, hy, rfl⟩
  · cases hz : d2.itemByHandle e.handle with
    | none => rfl
    | some z =>
      obtain ⟨x, hx, hfx, -⟩ := f2 _ z (hs.2 _ (stores_handle hst)).2 hz
      have hi' : (d.withVersion w).itemByHandle e.handle = some (.entity e) := hi
      replace hx := hi'.symm.trans hx
      cases hx
      change e.kind.supported w = true at hfx
      exfalso
      revert hfx hw
      rcases hk with hk | hk <;> rw [hk] <;> cases w <;> decide

/-! ### The hypotheses can be met -/

/-- The drawing of C42 with another version and other entities: a raised line and a remote text. -/
def raisedDrawing (v : Version) : Drawing Unit := { sampleDrawing with
  header := Rec.set (Rec.set (Rec.set (Rec.dflt Header.decls) 0 (v : Version)) 141
    (0x100#64 : Handle)) 140 true
  entities := [⟨⟨.line, 0, ⟨Rec.set (Rec.set (Rec.dflt _) 0 (8#64 : Handle)) 5
      (⟨0x3ff0000000000000⟩ : F64), [], []⟩⟩, Extra.dflt⟩,
    ⟨⟨.rText, 0, ⟨Rec.set (Rec.dflt _) 0 (10#64 : Handle), [], []⟩⟩, Extra.dflt⟩] }

theorem raisedDrawing_faithful (codec : ImageCodec Unit) {v : Version} (hv : v ≠ .r11)
    {d : Drawing Unit} (h : d = raisedDrawing v ∨ ∃ v', d = (raisedDrawing v').withVersion v) :
    d.Faithful codec := by
  have f := sampleDrawing_faithful codec
  have he : d.version = v ∧ d.header.DatesReadable := by
    rcases h with rfl | ⟨v', rfl⟩
    · exact ⟨rfl, f.dates⟩
    · exact ⟨rfl, f.dates⟩
  obtain ⟨header, classes, tables, blocks, entities, objects, thumbnail⟩ := d
  have hd : classes = [] ∧ tables = sampleDrawing.tables ∧ blocks = sampleDrawing.blocks ∧
      entities = (raisedDrawing .r12).entities ∧ objects = sampleDrawing.objects ∧
      thumbnail = none := by
    rcases h with h | ⟨v', h⟩ <;> cases h <;> exact ⟨rfl, rfl, rfl, rfl, rfl, rfl⟩
  obtain ⟨rfl, rfl, rfl, rfl, rfl, rfl⟩ := hd
  exact {
    version := by rw [he.1]; exact hv
    dates := he.2
    classNames := fun _ _ h => (by cases h)
    classCounts := fun _ _ h => (by cases h)
    tables := f.tables
    colors := f.colors
    blocks := by
      intro b hb
      obtain rfl := List.mem_singleton.mp hb
      exact ⟨fun g hg => (by cases hg), fun _ g hg => (by cases hg)⟩
    entities := by
      intro e he
      change e ∈ [_, _, _] at he
      simp only [List.mem_cons, List.not_mem_nil, or_false] at he
      rcases he with rfl | rfl | rfl
      · exact ⟨rfl, fun h => (by cases h.1), fun g hg => (by cases hg), fun _ h => (by cases h)⟩
      · exact ⟨rfl, fun h => (by cases h.1), fun g hg => (by cases hg), fun _ h => (by cases h)⟩
      · exact ⟨rfl, fun h => (by cases h.1), fun g hg => (by cases hg), fun _ h => (by cases h)⟩
    objects := by
      intro _ o ho
      obtain rfl := List.mem_singleton.mp ho
      exact ⟨trivial, fun g hg => (by cases hg)⟩
    thumbnail := fun _ _ h => (by cases h) }

/-- Saved in R12 or R2000, and again in R2010. -/
example (codec : ImageCodec Unit) (v : Version) (hv : v = .r12 ∨ v = .r2000) :
    (raisedDrawing v).version ≤ .r2010 ∧ (raisedDrawing v).Faithful codec ∧
    ((raisedDrawing v).withVersion .r2010).Faithful codec ∧
    (raisedDrawing v).next.toNat + (raisedDrawing v).demand < 2 ^ 64 ∧ (raisedDrawing v).Sound ∧
    0#64 < (raisedDrawing v).next ∧ (raisedDrawing v).writeHandles = true ∧
    ∃ e e', (raisedDrawing v).entities = [e, e'] ∧ e.kind = .line ∧
      (e.entry.fields.common 5 : F64) ≠ F64.zero ∧ e.kind.supported .r2010 = true ∧
      e'.kind = .rText := by
  have hn : (raisedDrawing v).next = 0x100#64 := rfl
  have hd : (raisedDrawing v).demand = 55 := rfl
  have hh : (raisedDrawing v).handles = [5#64, 6#64, 7#64, 8#64, 10#64, 9#64] := rfl
  have hb : ∀ h ∈ [5#64, 6#64, 7#64, 8#64, 10#64, 9#64], 0#64 < h ∧ h < 0x100#64 := by
    intro h hm
    simp only [List.mem_cons, List.not_mem_nil, or_false] at hm
    rcases hm with rfl | rfl | rfl | rfl | rfl | rfl <;> decide
  unfold Sound
  rw [hn, hd, hh]
  refine ⟨by rcases hv with rfl | rfl <;> decide, raisedDrawing_faithful codec
    (by rcases hv with rfl | rfl <;> decide) (.inl rfl), raisedDrawing_faithful codec
    (by decide) (.inr ⟨v, rfl⟩), by decide, ⟨by decide, hb⟩, by decide,
    by rcases hv with rfl | rfl <;> rfl, _, _, rfl, rfl, fun h => ?_, rfl, rfl⟩
  have : (0x3ff0000000000000#64 : BitVec 64) = 0#64 := congrArg F64.bits h
  exact absurd this (by decide)

/-- The elevation is in the file of R12. -/
example : CodePair.newF64 38 ⟨0x3ff0000000000000⟩ ∈
    (raisedDrawing .r12).entities.flatMap (fun e => e.pairs .r12 true) := by
  decide +kernel

end Dxf
