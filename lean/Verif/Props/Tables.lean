import Verif.Spec.Tables
import Verif.Lemmas.Tables
import Verif.Props.Small

/-! C20: table entries round trip. -/

namespace Dxf

/-- C20 for the eight kinds other than layers: writing a non-empty table of any length and reading
it back, after the `0/TABLE` and `2/<type>` pairs that select the reader, restores all entries in
order, leaving the `0/ENDTAB` pair and what follows.  The pairs in extension groups must be
ordinary ones (C25). -/
theorem C20_tables (K : TableKind) (hK : K ∈ Tables.others) (v : Version) (writeHandles : Bool)
    (items : List (TableItem K)) (hne : items ≠ []) (hext : ∀ a ∈ items, ExtGroup.AllPlain a.ext) :
    ∃ tail, K.pairs v writeHandles items =
        .newStr 0 str!"TABLE" :: .newStr 2 K.typeString :: tail ++ [.newStr 0 str!"ENDTAB"] ∧
      ∀ rest : Stream, ∃ items', List.Forall₂ (Restored K v writeHandles []) items items' ∧
        Rd.withFuel K.read (toStream tail ++ some (.ok (.newStr 0 str!"ENDTAB")) :: rest) =
          (.ok items', some (.ok (.newStr 0 str!"ENDTAB")) :: rest) := by
  refine ⟨[.newStr 100 str!"AcDbSymbolTable", .newI16 70 0#16] ++
    items.flatMap (K.itemPairs v writeHandles), ?_, fun rest => ?_⟩
  · rw [K.pairs_cons v writeHandles items hne]; simp
  · have hc := others_checks K hK writeHandles
    have hs := checks_spec hc
    obtain ⟨items', h1, h2⟩ := K.read_table v writeHandles hs.1 hs.2.1 items
      (fun a _ => emitAll_accepts K.arms _ v a.fields (others_safe K hK writeHandles)) hext rest
    refine ⟨items', h1.imp fun a b hab => ?_, by simpa using h2⟩
    have hr := reads_restored hc (others_frame K hK) hab
    refine ⟨fun i _ hrep => ?_, hr.2.1, hr.2.2⟩
    by_cases hb : K.typeString = str!"BLOCK_RECORD" ∧ i = 4
    · obtain ⟨hb, rfl⟩ := hb
      have hKb : K = Tables.blockRecord := by
        simp only [Tables.others, List.mem_cons, List.not_mem_nil, or_false] at hK
        rcases hK with rfl | rfl | rfl | rfl | rfl | rfl | rfl | rfl <;>
          first | rfl | exact absurd hb (by decide)
      subst hKb
      exact blockRecord_units hab hrep
    · refine hr.1 i (fun hi => hb ?_) hrep
      split at hi
      · exact ⟨‹_›, List.mem_singleton.mp hi⟩
      · simp at hi

/-- C20 for layers.  The colour (field 3) and the on/off state (field 9) share one pair; they come
back when the colour value is positive (C31 describes the other values).  The colour value -32768
must not occur: it makes reading and writing overflow (C31). -/
theorem C20_layers (v : Version) (writeHandles : Bool) (items : List (TableItem Tables.layer))
    (hne : items ≠ []) (hext : ∀ a ∈ items, ExtGroup.AllPlain a.ext)
    (hcol : ∀ a ∈ items, (a.fields 3 : I16).toInt ≠ -32768) :
    ∃ tail, Tables.layer.pairs v writeHandles items =
        .newStr 0 str!"TABLE" :: .newStr 2 str!"LAYER" :: tail ++ [.newStr 0 str!"ENDTAB"] ∧
      ∀ rest : Stream, ∃ items', List.Forall₂ (fun a b =>
          Restored Tables.layer v writeHandles [3, 9] a b ∧
          (0 < (a.fields 3 : I16).toInt → b.fields 3 = a.fields 3 ∧ b.fields 9 = a.fields 9))
          items items' ∧
        Rd.withFuel Tables.layer.read
            (toStream tail ++ some (.ok (.newStr 0 str!"ENDTAB")) :: rest) =
          (.ok items', some (.ok (.newStr 0 str!"ENDTAB")) :: rest) := by
  refine ⟨[.newStr 100 str!"AcDbSymbolTable", .newI16 70 0#16] ++
    items.flatMap (Tables.layer.itemPairs v writeHandles), ?_, fun rest => ?_⟩
  · rw [Tables.layer.pairs_cons v writeHandles items hne]; simp; rfl
  · have hc := layer_checks writeHandles
    have hs := checks_spec hc
    obtain ⟨items', h1, h2⟩ := Tables.layer.read_table v writeHandles hs.1 hs.2.1 items
      (fun a ha => layer_accepts writeHandles v a (hcol a ha)) hext rest
    refine ⟨items', ?_, by simpa using h2⟩
    clear h2 hne
    induction h1 with
    | nil => exact .nil
    | @cons a b as bs hab _ ih =>
      refine .cons ⟨reads_restored hc layer_frame hab, fun hpos => ?_⟩
        (ih (fun x hx => hext x (List.mem_cons_of_mem _ hx))
          (fun x hx => hcol x (List.mem_cons_of_mem _ hx)))
      obtain ⟨w, hw, hrd⟩ := layer_color hab (hcol a List.mem_cons_self)
      obtain ⟨w', hw', hrd'⟩ := C31_roundtrip ⟨a.fields 3⟩ (a.fields 9) hpos
      rw [hw] at hw'
      cases hw'
      rw [hrd] at hrd'
      have h := Prod.mk.inj (Option.some.inj hrd')
      exact ⟨Color.mk.inj h.2, h.1⟩

/-- Satisfiable: two views, one with an extension group and extended data. -/
example : Tables.view ∈ Tables.others ∧ ∃ items : List (TableItem Tables.view),
    items.length = 2 ∧ ∀ a ∈ items, ExtGroup.AllPlain a.ext := by
  refine ⟨by simp [Tables.others],
    [⟨Rec.set (ds := Tables.view.decls) (Rec.dflt _) 0 (str!"V" : Str),
      [⟨str!"A", [.pair (.newI16 70 3#16), .group str!"B" []]⟩],
      [⟨str!"B", [.integer 1#16]⟩]⟩, Entry.dflt _], rfl, fun a ha => ?_⟩
  simp only [List.mem_cons, List.not_mem_nil, or_false] at ha
  rcases ha with rfl | rfl
  · simp [ExtGroup.AllPlain, ExtItem.PlainList, ExtItem.Plain, CodePair.newI16]
  · simp [ExtGroup.AllPlain, Entry.dflt]

/-- Satisfiable: a layer with a group, extended data and a turned-off colour. -/
example : ∃ items : List (TableItem Tables.layer), items ≠ [] ∧
    (∀ a ∈ items, ExtGroup.AllPlain a.ext) ∧
    (∀ a ∈ items, (a.fields 3 : I16).toInt ≠ -32768 ∧ 0 < (a.fields 3 : I16).toInt ∧
      a.fields 9 = (false : Bool)) := by
  refine ⟨[⟨Rec.set (ds := Tables.layerDecls) (Rec.dflt _) 9 (false : Bool),
    [⟨str!"A", [.pair (.newI16 70 3#16)]⟩], [⟨str!"B", [.integer 1#16]⟩]⟩], by simp, ?_, ?_⟩
  · intro a ha
    rw [List.mem_singleton.mp ha]
    simp [ExtGroup.AllPlain, ExtItem.PlainList, ExtItem.Plain, CodePair.newI16]
  · intro a ha
    rw [List.mem_singleton.mp ha]
    exact ⟨by decide +kernel, by decide +kernel, rfl⟩

/-! ### Which fields are written -/

/-- The fields of a table kind that no statement for version `v` writes. -/
def TableKind.omitted (K : TableKind) (v : Version) : List Nat :=
  (List.range K.decls.length).filter fun i =>
    !(K.all true).any fun g => g.writes i && versionGate g.min g.max v

/-- R2018 writes every field of every kind except the owner (2), of layers the colour and the
on/off state (3 and 9, written together in one computed pair), and of view ports some old fields
and, among them, whether there is an own coordinate system (28). -/
theorem C20_complete_r2018 : Tables.kinds.map (fun K => K.omitted .r2018) =
    [[2], [2], [2], [2], [2, 3, 9], [2], [2], [2], [2, 12, 20, 22, 23, 24, 25, 28]] := by
  decide +kernel

/-- What R2000 omits: block record units and preview settings, the layer material, the newer view
and view port settings. -/
theorem C20_complete_r2000 : Tables.kinds.map (fun K => K.omitted .r2000) =
    [[2], [2, 4, 5, 6], [2], [2], [2, 3, 8, 9], [2], [2],
      [2, 15, 16, 17, 18, 19, 25, 26], 2 :: 26 :: List.range' 36 12] := by
  decide +kernel

/-- What R12 omits. -/
theorem C20_complete_r12 : Tables.kinds.map (fun K => K.omitted .r12) =
    [[2], List.range' 2 6, 2 :: 24 :: 33 :: List.range' 43 23, 2 :: List.range' 8 8,
      [2, 3, 5, 6, 7, 8, 9], [2], 2 :: List.range' 6 5, 2 :: List.range' 13 14,
      2 :: List.range' 26 22] := by
  decide +kernel

/-- The kinds none of whose fields is subject to a condition on the entry. -/
def Tables.unconditional : List TableKind :=
  [Tables.appId, Tables.blockRecord, Tables.dimStyle, Tables.lineType, Tables.layer, Tables.style,
    Tables.ucs]

/-- For these kinds a field is written in a version whatever the entry holds, unless listed in
`omitted`; with `C20_tables` and `C20_layers` it is then restored. -/
theorem C20_written (K : TableKind) (hK : K ∈ Tables.unconditional) (v : Version)
    (r : Rec K.decls) (i : Nat) (hi : i < K.decls.length) (hom : i ∉ K.omitted v) :
    Written (K.all true) v r i := by
  have hc : ∀ g ∈ K.all true, ∀ r, g.cond r = true := by
    simp only [Tables.unconditional, List.mem_cons, List.not_mem_nil, or_false] at hK
    rcases hK with rfl | rfl | rfl | rfl | rfl | rfl | rfl
    all_goals
      refine List.forall_mem_append.mpr ⟨?_, ?_⟩
      · repeat' first
          | exact fun g hg => absurd hg List.not_mem_nil
          | refine List.forall_mem_cons.mpr ⟨fun _ => rfl, ?_⟩
      · repeat' first
          | exact fun g hg => absurd hg List.not_mem_nil
          | refine List.forall_mem_cons.mpr ⟨fun _ => rfl, ?_⟩
  by_contra hw
  refine hom (List.mem_filter.mpr ⟨List.mem_range.mpr hi, ?_⟩)
  rw [Bool.not_eq_true', Bool.eq_false_iff]
  intro h
  obtain ⟨g, hg, hgw⟩ := List.any_eq_true.mp h
  rw [Bool.and_eq_true] at hgw
  exact hw ⟨g, hg, hgw.1, by rw [GCmd.holds, hgw.2, hc g hg]; rfl⟩

/-- A view with an associated coordinate system: all fields but the owner are written. -/
theorem C20_written_view (r : Rec Tables.view.decls) (hucs : (r 14 : Bool) = true) (i : Nat)
    (hi : i < Tables.view.decls.length) (h2 : i ≠ 2) :
    Written (Tables.view.all true) .r2018 r i := by
  have hc : ∀ g ∈ Tables.view.all true, g.cond r = true := by
    refine List.forall_mem_append.mpr ⟨?_, ?_⟩
    · repeat' first
        | exact fun g hg => absurd hg List.not_mem_nil
        | refine List.forall_mem_cons.mpr ⟨rfl, ?_⟩
    · repeat' first
        | exact fun g hg => absurd hg List.not_mem_nil
        | refine List.forall_mem_cons.mpr ⟨rfl, ?_⟩
        | refine List.forall_mem_cons.mpr ⟨hucs, ?_⟩
  have hom : i ∉ Tables.view.omitted .r2018 := by
    have : Tables.view.omitted .r2018 = [2] := by decide +kernel
    simpa [this] using h2
  by_contra hw
  refine hom (List.mem_filter.mpr ⟨List.mem_range.mpr hi, ?_⟩)
  rw [Bool.not_eq_true', Bool.eq_false_iff]
  intro h
  obtain ⟨g, hg, hgw⟩ := List.any_eq_true.mp h
  rw [Bool.and_eq_true] at hgw
  exact hw ⟨g, hg, hgw.1, by rw [GCmd.holds, hgw.2, hc g hg]; rfl⟩

/-- The handle is not written when handles are switched off. -/
theorem C20_no_handle (K : TableKind) (hK : K ∈ Tables.kinds) (v : Version) (r : Rec K.decls) :
    ¬ Written (K.all false) v r 1 := by
  rintro ⟨g, hg, h1, h2⟩
  have hn : ∀ K ∈ Tables.kinds, K.cmds.all (fun g => !g.writes 1) = true := by decide +kernel
  rcases List.mem_append.mp hg with hg | hg
  · simp only [Tables.kinds, List.mem_cons, List.not_mem_nil, or_false] at hK
    rcases hK with rfl | rfl | rfl | rfl | rfl | rfl | rfl | rfl | rfl
    all_goals
      rw [List.mem_singleton.mp hg] at h2
      revert h2
      cases v <;> exact Bool.false_ne_true
  · have := List.all_eq_true.mp (hn K hK) g hg
    rw [h1] at this
    exact Bool.false_ne_true this

/-! ### What is lost -/

/-- No statement ever writes the owner, so it never survives. -/
theorem C20_owner_lost (K : TableKind) (hK : K ∈ Tables.kinds) (v : Version) (writeHandles : Bool)
    (r : Rec K.decls) : ¬ Written (K.all writeHandles) v r 2 := by
  rintro ⟨g, hg, h1, -⟩
  have hn : ∀ K ∈ Tables.kinds, ∀ wh, (K.all wh).all (fun g => !g.writes 2) = true := by
    decide +kernel
  have := List.all_eq_true.mp (hn K hK writeHandles) g hg
  rw [h1] at this
  exact Bool.false_ne_true this

/-- A view port's own coordinate system survives one save and load as R2007 or newer, but not a
second one: the flag (28) that says there is one is not written, so the first load clears it, and
the next save omits the coordinate system's origin (29). -/
theorem C20_viewport_ucs_lost (v : Version) (hv : .r2007 ≤ v) (r : Rec Tables.viewPort.decls) :
    ¬ Written (Tables.viewPort.all true) v r 28 ∧
    Rec.dflt Tables.viewPort.decls 28 = (false : Bool) ∧
    (r 28 = (true : Bool) → Written (Tables.viewPort.all true) v r 29) ∧
    (r 28 = (false : Bool) → ¬ Written (Tables.viewPort.all true) v r 29) := by
  have hf : (Tables.viewPort.all true).filter (·.writes 29) =
      [{ cmd := .field 29 (.axes [(.x, 110), (.y, 120), (.z, 130)])
         min := some .r2000
         cond := fun r => r 28 }] := rfl
  have hw : Written (Tables.viewPort.all true) v r 29 ↔ r 28 = (true : Bool) := by
    constructor
    · rintro ⟨g, hg, h1, h2⟩
      have hm := List.mem_filter (p := (·.writes 29)).mpr ⟨hg, h1⟩
      rw [hf] at hm
      rw [List.mem_singleton.mp hm, GCmd.holds, Bool.and_eq_true] at h2
      exact h2.2
    · intro h
      have hm := List.mem_filter.mp (hf ▸ List.mem_singleton.mpr rfl)
      refine ⟨_, hm.1, hm.2, ?_⟩
      rw [GCmd.holds, Bool.and_eq_true]
      exact ⟨by revert hv; cases v <;> decide, h⟩
  refine ⟨?_, rfl, hw.mpr, fun h hc => ?_⟩
  · rintro ⟨g, hg, h1, h2⟩
    have hn : (Tables.viewPort.all true).all
        (fun g => !(g.writes 28 && versionGate g.min g.max v)) = true := by
      revert hv; cases v <;> decide +kernel
    have := List.all_eq_true.mp hn g hg
    rw [GCmd.holds, Bool.and_eq_true] at h2
    rw [h1, h2.1] at this
    exact Bool.false_ne_true this
  · have := hw.mp hc
    rw [h] at this
    exact Bool.false_ne_true this

/-- What one entry comes back as, seen through `f`. -/
def TableKind.again {α : Type} (K : TableKind) (v : Version) (it : TableItem K)
    (f : Rec K.decls → α) : Except DxfErr (List α) :=
  (Rd.withFuel K.read (toStream ((K.pairs v true [it]).drop 2))).1.map fun bs =>
    bs.map fun b => f b.fields

/-- The hypothesis of representability is needed: the third coordinate of a view's centre (4) is
not written. -/
theorem C20_view_center_z :
    Tables.view.again .r2018
      ⟨Rec.set (Rec.dflt _) 4 (⟨⟨0#64⟩, ⟨0#64⟩, ⟨1#64⟩⟩ : Point), [], []⟩ (fun r => (r 4 : Point)) =
      .ok [⟨⟨0#64⟩, ⟨0#64⟩, ⟨0#64⟩⟩] := by
  decide +kernel

/-- A style's generation flags (6) are an `i32` written as an `i16`: 65536 comes back as 0. -/
theorem C20_style_flags_truncated :
    Tables.style.again .r2018 ⟨Rec.set (Rec.dflt _) 6 (65536#32 : I32), [], []⟩
      (fun r => (r 6 : I32)) = .ok [0#32] := by
  decide +kernel

/-- The empty extension group disappears (C25) from table entries. -/
theorem C20_empty_group_lost :
    (Rd.withFuel Tables.appId.read (toStream ((Tables.appId.pairs .r2018 true
      [⟨Rec.dflt _, [⟨str!"G", []⟩], []⟩]).drop 2))).1.map (fun bs => bs.map fun b =>
        b.ext.length) = .ok [0] := by
  decide +kernel

/-- A file that gives a layer the colour -32768 makes loading overflow (a panic in debug
builds). -/
theorem C20_layer_color_panics :
    (Rd.withFuel Tables.layer.read (toStream
      [.newStr 0 str!"LAYER", .newI16 62 (BitVec.ofInt 16 (-32768)),
        .newStr 0 str!"ENDTAB"])).1.map (fun bs => bs.length) = .error .panic := by
  decide +kernel

end Dxf
