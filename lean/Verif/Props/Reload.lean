import Verif.Lemmas.Reload

/-! Saving a drawing and loading it: C41, C42. -/

namespace Dxf

open Drawing

variable {Img : Type} {codec : ImageCodec Img} {h0 : Header} {d : Drawing Img}

/-! ### C42: what comes back -/

/-- C42: a drawing is saved and loaded without an error, to the last pair.  What is loaded is the
content of the file, completed with handles and with entries for missing names; and the content of
the file is what was saved, as far as the version of the drawing can express it.  (Partial:
`Faithful` excludes drawings with parts that do not come back, and the last handle must not come
into sight.) -/
theorem C42_partial (hfr : h0.Fresh) (order : List Str) (ho : 41 + 2 * order.length < 2 ^ 64)
    (hf : d.Faithful codec) (hroom : d.next.toNat + d.demand < 2 ^ 64) :
    ∃ ps p d', d.codePairs codec = .ok ps ∧ load codec h0 order (toStream ps) = (.ok d', []) ∧
      d.Restored h0 p ∧ p.Completed d' := by
  obtain ⟨ps, p, d', h1, h2, -, h3, h4, -⟩ := reload hfr order ho hf hroom
  exact ⟨ps, p, d', h1, h2, h3, h4⟩

/-- C42 fails for block records: each time the drawing is saved and loaded, there is one more for
each block. -/
theorem C42_records_grow (hfr : h0.Fresh) (order : List Str) (ho : 41 + 2 * order.length < 2 ^ 64)
    (hf : d.Faithful codec) (hroom : d.next.toNat + d.demand < 2 ^ 64) (hv : .r13 ≤ d.version) :
    ∃ ps d', d.codePairs codec = .ok ps ∧ load codec h0 order (toStream ps) = (.ok d', []) ∧
      (d'.tables .blockRecord).length = (d.tables .blockRecord).length + d.blocks.length ∧
      d'.blocks.length = d.blocks.length := by
  obtain ⟨ps, p, d', h1, h2, h3, h4⟩ := C42_partial hfr order ho hf hroom
  obtain ⟨items, new, e, f1, f2⟩ := h4.records
  have k1 := (h3.tables .blockRecord).length_eq
  rw [filed, if_neg (fun h => h.2 hv)] at k1
  have k2 := h3.blocks.length_eq
  have k3 := h4.blocks.length_eq
  have k4 := f1.length_eq
  have k5 := f2.length_eq
  refine ⟨ps, d', h1, h2, ?_, by omega⟩
  rw [e, List.length_append]
  omega

/-- C42 fails for the styles of multilines: a style that a multiline uses is there once more each
time the drawing is saved and loaded, and the additional one, which is a default one, comes
first. -/
theorem C42_styles_grow (hfr : h0.Fresh) (order : List Str) (ho : 41 + 2 * order.length < 2 ^ 64)
    (hf : d.Faithful codec) (hroom : d.next.toNat + d.demand < 2 ^ 64) (hv : .r13 ≤ d.version)
    {e : Entity} (he : e ∈ d.entities) {s : Str} (hs : e.mlineStyle = some s) :
    ∃ ps d', d.codePairs codec = .ok ps ∧ load codec h0 order (toStream ps) = (.ok d', []) ∧
      (d'.objects.countP fun o => o.styleName == some s) =
        1 + (d.objects.countP fun o => o.styleName == some s) ∧
      ∃ h, d'.objects.find? (fun o => o.styleName == some s) =
        some ((Object.mlineStyle s).setHandle h) := by
  obtain ⟨ps, p, d', h1, h2, h3, h4⟩ := C42_partial hfr order ho hf hroom
  refine ⟨ps, d', h1, h2, ?_⟩
  obtain ⟨new, items, e1, f1, hn, hd, hall⟩ := h4.objects
  -- the multiline is in the file
  have hk : e.kind.supported d.version = true := by
    obtain ⟨⟨k, n, x⟩, y⟩ := e
    cases k
    case mLine =>
      change (decide (_ ≤ _) && true) = true
      rw [Bool.and_true, decide_eq_true_eq]
      exact hv
    all_goals cases hs
  obtain ⟨e', he', hr⟩ : ∃ e' ∈ p.entities, e.Restored d.version d.writeHandles e' := by
    have hm : e ∈ d.entities.filter fun e => e.kind.supported d.version :=
      List.mem_filter.mpr ⟨he, hk⟩
    have hf := h3.entities
    generalize (d.entities.filter fun e => e.kind.supported d.version) = xs at hm hf
    generalize p.entities = ys at hf
    induction hf with
    | nil => cases hm
    | @cons a b as bs h _ ih =>
      rcases List.mem_cons.mp hm with rfl | hm
      · exact ⟨b, List.mem_cons_self, h⟩
      · obtain ⟨c, hc, r⟩ := ih hm
        exact ⟨c, List.mem_cons_of_mem _ hc, r⟩
  obtain ⟨o, ho, hos⟩ := hall e' he' s ((mlineStyle_restored hr).trans hs)
  -- the new style occurs once
  have hnew : (new.countP fun o => o.styleName == some s) = 1 := by
    have : (new.map Object.styleName).count (some s) = 1 :=
      List.count_eq_one_of_mem hn (List.mem_map.mpr ⟨o, ho, hos⟩)
    rw [List.count, List.countP_map] at this
    exact this
  have hitems : (items.countP fun o => o.styleName == some s) =
      d.objects.countP fun o => o.styleName == some s := by
    rw [countP_forall₂ (f := fun o => o.styleName == some s)
      (fun a b h => by rw [styleName_handled h]) f1,
      countP_forall₂ (f := fun o => o.styleName == some s)
      (fun a b h => by rw [styleName_restored h]) h3.objects, if_pos hv, List.countP_filter]
    refine List.countP_congr fun o _ => ?_
    obtain ⟨k, x, y⟩ := o
    cases k <;> try rfl
    simp only [Bool.and_eq_true, and_iff_left_iff_imp]
    exact fun _ => rfl
  refine ⟨by rw [e1, List.countP_append, hnew, hitems], ?_⟩
  rw [e1, List.find?_append]
  cases hfd : new.find? fun o => o.styleName == some s with
  | none => exact absurd hos (by simpa using List.find?_eq_none.mp hfd o ho)
  | some o' =>
    obtain ⟨_, _, s', h, _, rfl⟩ := hd o' (List.mem_of_find?_eq_some hfd)
    have : (((Object.mlineStyle s').setHandle h).styleName == some s) = true :=
      List.find?_some (p := fun o : Object => o.styleName == some s) hfd
    have : some s' = some s := eq_of_beq this
    cases this
    exact ⟨h, rfl⟩

/-! ### C41: handles -/

/-- C41 for drawings as in C42: if no handle occurs twice in the drawing that is saved, then none
does in the drawing that is loaded, although handles have been assigned when loading, and the next
handle is still greater than all. -/
theorem C41_partial (hfr : h0.Fresh) (order : List Str) (ho : 41 + 2 * order.length < 2 ^ 64)
    (hf : d.Faithful codec) (hroom : d.next.toNat + d.demand < 2 ^ 64) (hs : d.Sound)
    (hp : 0#64 < d.next) :
    ∃ ps d', d.codePairs codec = .ok ps ∧ load codec h0 order (toStream ps) = (.ok d', []) ∧
      d'.Sound ∧ d.next ≤ d'.next := by
  obtain ⟨ps, p, d', h1, h2, -, h3, -, hl⟩ := reload hfr order ho hf hroom
  refine ⟨ps, d', h1, h2, hl.sound hs (next_restored h3) hp (handles_restored h3), ?_⟩
  have := hl.next
  have e : p.outline.next = d.next :=
    (show p.outline.next = p.next from rfl).trans (next_restored h3)
  rw [e] at this
  exact BitVec.le_def.mpr this

/-- C41 fails for files of other programs: if the number of the next handle is not given, then
handles that are in use are assigned again.  Here the handle of the first line is assigned to its
line type, which is missing in the file, and the one of the second line to the third. -/
theorem C41_foreign (codec : ImageCodec Img) {order : List Str} {d0 : Drawing Img}
    (h : Drawing.new h0 order = .ok d0) : ∃ d', load codec h0 order (toStream [
      .newStr 0 str!"SECTION", .newStr 2 str!"ENTITIES", .newStr 0 str!"LINE", .newStr 5 str!"3",
      .newStr 0 str!"LINE", .newStr 5 str!"4", .newStr 0 str!"LINE", .newStr 0 str!"ENDSEC",
      .newStr 0 str!"EOF"]) = (.ok d', []) ∧
    d'.entities.map Entity.handle = [3#64, 4#64, 4#64] ∧
    (d'.tables .lineType).map (TName.handle .lineType) = [2#64, 3#64] := by
  unfold load
  rw [h]
  exact ⟨_, rfl, rfl, rfl⟩

/-- C41 fails for the entities attached to others, even if the number of the next handle is given:
the handles of vertices are not taken over, nor are new ones assigned, so that all vertices of the
drawing have the same. -/
theorem C41_children (codec : ImageCodec Img) {order : List Str} {d0 : Drawing Img}
    (h : Drawing.new h0 order = .ok d0) : ∃ d', load codec h0 order (toStream [
      .newStr 0 str!"SECTION", .newStr 2 str!"HEADER", .newStr 9 str!"$HANDSEED",
      .newStr 5 str!"100", .newStr 0 str!"ENDSEC",
      .newStr 0 str!"SECTION", .newStr 2 str!"ENTITIES", .newStr 0 str!"POLYLINE",
      .newStr 5 str!"10", .newStr 0 str!"VERTEX", .newStr 5 str!"11", .newStr 0 str!"VERTEX",
      .newStr 5 str!"12", .newStr 0 str!"SEQEND", .newStr 5 str!"13", .newStr 0 str!"ENDSEC",
      .newStr 0 str!"EOF"]) = (.ok d', []) ∧
    d'.entities.map Entity.handle = [0x10#64] ∧
    d'.entities.flatMap Entity.childHandles =
      [0#64, 0xFFFFFFFFFFFFFFFF#64, 0xFFFFFFFFFFFFFFFF#64] ∧
    ¬ d'.DeepSound := by
  unfold load
  rw [h]
  refine ⟨_, rfl, rfl, rfl, fun hs => ?_⟩
  have hn := (List.nodup_append.mp hs.1).2.1
  revert hn
  exact of_decide_eq_false (p := List.Nodup
    [0#64, 0xFFFFFFFFFFFFFFFF#64, 0xFFFFFFFFFFFFFFFF#64]) (by decide)

/-! ### The hypotheses can be met -/

/-- A drawing with a layer, a block with a line, a multiline and its style. -/
def sampleDrawing : Drawing Unit where
  header := Rec.set (Rec.set (Rec.dflt Header.decls) 0 (.r2010 : Version)) 141 (0x100#64 : Handle)
  classes := []
  tables := fun
    | .layer => [TName.setHandle .layer (TName.named .layer str!"WALLS") 5#64]
    | _ => []
  blocks := [{ Block.dflt.setHandle 6#64 with entities := [Entity.setHandle ⟨⟨.line, 0, Entry.dflt _⟩, Extra.dflt⟩ 7#64] }]
  entities := [⟨⟨.mLine, 0, ⟨Rec.set (Rec.set (Rec.dflt _) 18 str!"S") 0 (8#64 : Handle), [], []⟩⟩,
    Extra.dflt⟩]
  objects := [(Object.mlineStyle str!"S").setHandle 9#64]
  thumbnail := none

theorem sampleDrawing_faithful (codec : ImageCodec Unit) : sampleDrawing.Faithful codec where
  version := by decide
  dates := by
    refine ⟨⟨1000000000, ?_⟩, ⟨1000000000, ?_⟩, ⟨1000000000, ?_⟩, ⟨1000000000, ?_⟩⟩ <;> decide +kernel
  classNames := fun _ _ h => (by cases h)
  classCounts := fun _ _ h => (by cases h)
  tables := by
    intro t x hx
    cases t <;> first | cases hx | skip
    · intro g hg
      cases hg
    · rename_i h
      cases h
  colors := by
    intro x hx
    obtain rfl := List.mem_singleton.mp hx
    decide
  blocks := by
    intro b hb
    obtain rfl := List.mem_singleton.mp hb
    exact ⟨fun g hg => (by cases hg), fun _ g hg => (by cases hg)⟩
  entities := by
    intro e he
    change e ∈ [_, _] at he
    simp only [List.mem_cons, List.not_mem_nil, or_false] at he
    rcases he with rfl | rfl
    · exact ⟨rfl, fun h => (by cases h.1), fun g hg => (by cases hg), fun _ h => (by cases h)⟩
    · exact ⟨rfl, fun h => (by cases h.1), fun g hg => (by cases hg), fun _ h => (by cases h)⟩
  objects := by
    intro _ o ho
    obtain rfl := List.mem_singleton.mp ho
    exact ⟨trivial, fun g hg => (by cases hg)⟩
  thumbnail := fun _ _ h => (by cases h)

example (codec : ImageCodec Unit) : Header.Fresh (Rec.dflt Header.decls) ∧
    sampleDrawing.Faithful codec ∧ sampleDrawing.next.toNat + sampleDrawing.demand < 2 ^ 64 ∧
    sampleDrawing.Sound ∧ 0#64 < sampleDrawing.next ∧ .r13 ≤ sampleDrawing.version ∧
    (∃ e ∈ sampleDrawing.entities, e.mlineStyle = some str!"S") ∧ sampleDrawing.blocks ≠ [] := by
  have hn : sampleDrawing.next = 0x100#64 := rfl
  have hd : sampleDrawing.demand = 37 := rfl
  have hh : sampleDrawing.handles = [5#64, 6#64, 7#64, 8#64, 9#64] := rfl
  unfold Sound
  rw [hn, hd, hh]
  have hb : ∀ h ∈ [5#64, 6#64, 7#64, 8#64, 9#64], 0#64 < h ∧ h < 0x100#64 := by
    intro h hm
    simp only [List.mem_cons, List.not_mem_nil, or_false] at hm
    rcases hm with rfl | rfl | rfl | rfl | rfl <;> decide
  exact ⟨fun _ _ => rfl, sampleDrawing_faithful codec, by decide, ⟨by decide, hb⟩, by decide,
    by decide, ⟨_, List.mem_cons_self, rfl⟩, by simp [sampleDrawing]⟩

/-- There are new drawings. -/
example : ∃ d : Drawing Unit, Drawing.new (Rec.dflt _) [] = .ok d :=
  new_ok (fun _ _ => rfl) [] (by decide)

end Dxf
