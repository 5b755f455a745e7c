import Verif.Spec.LineWeight
import Verif.Lemmas.Change
import Verif.Props.Header

/-! Line weights (C74). -/

namespace Dxf

/-- C74: a line weight is by block, by layer or neither, and what is made as such is recognized. -/
theorem C74_classes : LineWeight.byBlock.isByBlock = true ∧ LineWeight.byLayer.isByLayer = true ∧
    ∀ w : LineWeight, ¬ (w.isByBlock = true ∧ w.isByLayer = true) ∧
      (w.isByBlock = true → w = .byBlock) ∧ (w.isByLayer = true → w = .byLayer) ∧
      LineWeight.fromRaw w.raw = w := by
  refine ⟨rfl, rfl, fun ⟨w⟩ => ⟨?_, ?_, ?_, rfl⟩⟩
  · simp only [LineWeight.isByBlock, LineWeight.isByLayer, decide_eq_true_eq]
    rintro ⟨rfl, h⟩
    exact absurd h (by decide)
  · simp only [LineWeight.isByBlock, decide_eq_true_eq]
    rintro rfl
    rfl
  · simp only [LineWeight.isByLayer, decide_eq_true_eq]
    rintro rfl
    rfl

set_option maxRecDepth 20000 in
theorem header_weight_92 : (Header.cmds.filter fun c => c.g.writes 92) =
    [⟨str!"$DIMLWD", { cmd := .field 92 (.one 70 .i16), min := some .r2000 }⟩] := rfl

set_option maxRecDepth 20000 in
theorem header_weight_93 : (Header.cmds.filter fun c => c.g.writes 93) =
    [⟨str!"$DIMLWE", { cmd := .field 93 (.one 70 .i16), min := some .r2000 }⟩] := rfl

set_option maxRecDepth 20000 in
theorem header_weight_205 : (Header.cmds.filter fun c => c.g.writes 205) =
    [⟨str!"$CELWEIGHT", { cmd := .field 205 (.one 370 .i16), min := some .r2000 }⟩] := rfl

theorem active_eq (i : Nat) (v : Version) : Header.cmds.filter (HCmd.active i v) =
    (Header.cmds.filter fun c => c.g.writes i).filter fun c => versionGate c.g.min c.g.max v := by
  rw [List.filter_filter]
  congr 1
  funext c
  exact Bool.and_comm _ _

theorem gate_2000 {v : Version} (hv : .r2000 ≤ v) : versionGate (some .r2000) none v = true := by
  cases v <;> first | rfl | exact absurd hv (by decide)

/-- C74: in files from R2000 on the number of a line weight stands in a variable of the header, or
under code 370 to 372 of a layer or a dimension style (C20). -/
theorem C74_written (r : Header) (hv : .r2000 ≤ r.version) :
    (∃ before behind, ∀ w : LineWeight, Header.pairs (r.set 205 w.raw) =
      before ++ [.newStr 9 str!"$CELWEIGHT", .newI16 370 w.raw] ++ behind) ∧
    (∃ before behind, ∀ w : LineWeight, Header.pairs (r.set 92 w.raw) =
      before ++ [.newStr 9 str!"$DIMLWD", .newI16 70 w.raw] ++ behind) ∧
    (∃ before behind, ∀ w : LineWeight, Header.pairs (r.set 93 w.raw) =
      before ++ [.newStr 9 str!"$DIMLWE", .newI16 70 w.raw] ++ behind) := by
  refine ⟨?_, ?_, ?_⟩
  · obtain ⟨a, b, h⟩ := header_part (i := 205) (by decide) r
    refine ⟨a, b, fun w => (h w.raw).trans ?_⟩
    unfold Header.part
    rw [active_eq, header_weight_205, List.filter_cons_of_pos (by exact gate_2000 hv)]
    congr 2
    simp only [headerPairs, HCmd.emit, GCmd.holds, gate_2000 hv, List.filter_nil, List.flatMap_cons,
      List.flatMap_nil, List.append_nil]
    rfl
  · obtain ⟨a, b, h⟩ := header_part (i := 92) (by decide) r
    refine ⟨a, b, fun w => (h w.raw).trans ?_⟩
    unfold Header.part
    rw [active_eq, header_weight_92, List.filter_cons_of_pos (by exact gate_2000 hv)]
    congr 2
    simp only [headerPairs, HCmd.emit, GCmd.holds, gate_2000 hv, List.filter_nil, List.flatMap_cons,
      List.flatMap_nil, List.append_nil]
    rfl
  · obtain ⟨a, b, h⟩ := header_part (i := 93) (by decide) r
    refine ⟨a, b, fun w => (h w.raw).trans ?_⟩
    unfold Header.part
    rw [active_eq, header_weight_93, List.filter_cons_of_pos (by exact gate_2000 hv)]
    congr 2
    simp only [headerPairs, HCmd.emit, GCmd.holds, gate_2000 hv, List.filter_nil, List.flatMap_cons,
      List.flatMap_nil, List.append_nil]
    rfl

theorem header_keeps : ∀ v ∈ Version.all, .r2000 ≤ v → ∀ i ∈ [92, 93, 205],
    (Header.known.any fun g => g.writes i && versionGate g.min g.max v) = true := by
  decide +kernel

theorem header_omits {v : Version} (hv : .r2000 ≤ v) {i : Nat} (hi : i ∈ [92, 93, 205]) :
    i ∉ Header.omitted v := by
  intro h
  have h := (List.mem_filter.mp h).2
  rw [header_keeps v (mem_all v) hv i hi] at h
  cases h

theorem weight_fits (r : Header) {i : Nat} (hi : i ∈ [92, 93, 205]) :
    Representable Header.known r.version r i := by
  intro g hg _ w hw
  obtain ⟨c, hc, rfl⟩ := List.mem_map.mp hg
  have hc := (List.mem_filter.mp hc).1
  have key : c ∈ Header.cmds.filter fun c => c.g.writes i := by
    refine List.mem_filter.mpr ⟨hc, ?_⟩
    rw [GCmd.writes, hw]
    simp
  simp only [List.mem_cons, List.not_mem_nil, or_false] at hi
  rcases hi with rfl | rfl | rfl
  · rw [header_weight_92, List.mem_singleton] at key
    subst key
    cases hw
    trivial
  · rw [header_weight_93, List.mem_singleton] at key
    subst key
    cases hw
    trivial
  · rw [header_weight_205, List.mem_singleton] at key
    subst key
    cases hw
    trivial

/-- C74: the line weights of the header come back from files from R2000 on. -/
theorem C74_read (h0 : Header) (hfresh : h0.Fresh) (r : Header) (hd : r.DatesReadable)
    (hv : .r2000 ≤ r.version) (rest : Stream) :
    ∃ r' : Header,
      Header.read h0 (toStream (Header.body r) ++ some (.ok (.newStr 0 str!"ENDSEC")) :: rest) =
        (.ok r', some (.ok (.newStr 0 str!"ENDSEC")) :: rest) ∧
      ∀ i ∈ [92, 93, 205], r' i = r i := by
  obtain ⟨r', h1, h2⟩ := C19_restored h0 hfresh r hd rest
  refine ⟨r', h1, fun i hi => h2 i ?_ (header_omits hv hi) (weight_fits r hi)⟩
  simp only [List.mem_cons, List.not_mem_nil, or_false] at hi
  rcases hi with rfl | rfl | rfl <;> decide +kernel

/-- C74: a line weight that is neither by block nor by layer means the same in the file as in the
program. -/
theorem C74_partial (w : LineWeight) (h1 : w.isByBlock = false) (h2 : w.isByLayer = false) :
    Weight.ofCode w.raw = w.meaning := by
  obtain ⟨n⟩ := w
  simp only [LineWeight.isByBlock, LineWeight.isByLayer, decide_eq_false_iff_not] at h1 h2
  have e1 : n.toInt ≠ -1 := fun h => h1 (BitVec.eq_of_toInt_eq (h.trans (by decide)))
  have e2 : n.toInt ≠ -2 := fun h => h2 (BitVec.eq_of_toInt_eq (h.trans (by decide)))
  rw [Weight.ofCode, if_neg e1, if_neg e2, LineWeight.meaning, LineWeight.isByLayer,
    LineWeight.isByBlock, decide_eq_false h2, decide_eq_false h1]
  rfl

/-- C74 is violated for the others: what the library calls by layer is by block in the file, and the
other way round. -/
theorem C74_violated : Weight.ofCode LineWeight.byLayer.raw = .byBlock ∧
    Weight.ofCode LineWeight.byBlock.raw = .byLayer ∧
    ∀ w : LineWeight, Weight.ofCode w.raw ≠ w.meaning ↔ w.isByBlock = true ∨ w.isByLayer = true := by
  refine ⟨by decide, by decide, fun w => ⟨fun h => ?_, ?_⟩⟩
  · by_contra hn
    rw [not_or, Bool.not_eq_true, Bool.not_eq_true] at hn
    exact h (C74_partial w hn.1 hn.2)
  · rintro (h | h)
    · rw [(C74_classes.2.2 w).2.1 h]
      decide
    · rw [(C74_classes.2.2 w).2.2.1 h]
      decide

/-- A weight of 0.25 mm, and a header with line weights. -/
example : (LineWeight.fromRaw 25#16).isByBlock = false ∧ (LineWeight.fromRaw 25#16).isByLayer = false ∧
    LineWeight.meaning (.fromRaw 25#16) = .fixed 25#16 := by decide

example : Header.Fresh (Rec.dflt _) ∧
    Version.r2000 ≤ Header.version (Rec.set (ds := Header.decls) (Rec.dflt _) 0 Version.r2000) :=
  ⟨fun _ _ => rfl, by decide⟩

end Dxf
