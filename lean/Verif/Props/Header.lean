import Verif.Spec.Header
import Verif.Lemmas.Header

/-! C19: the header round trips. -/

namespace Dxf

/-- C19: reading the pairs written for any header restores, in every field whose value the file
format can represent, the value if the header's version writes it in a variable that the reader
knows, and otherwise leaves what `Header::default()` put there (`h0`). -/
theorem C19_header (h0 : Header) (hfresh : h0.Fresh) (r : Header) (hd : r.DatesReadable)
    (rest : Stream) :
    ∃ r' : Header,
      Header.read h0 (toStream (Header.body r) ++ some (.ok (.newStr 0 str!"ENDSEC")) :: rest) =
        (.ok r', some (.ok (.newStr 0 str!"ENDSEC")) :: rest) ∧
      ∀ i, Representable Header.known r.version r i →
        (Written Header.known r.version r i → r' i = r i) ∧
        (¬ Written Header.known r.version r i → r' i = h0 i) := by
  have hok := Header.checks
  have hread : ∀ i (w : FWrite (tyAt Header.decls i)), w.Readable (r i) := by
    intro i w
    by_cases hi : i < Header.decls.length
    · have := List.all_eq_true.mp Header.date_fields (Header.decls[i], i)
        (List.mk_mem_zipIdx_iff_getElem?.mpr (by simp [hi]))
      simp only [Bool.and_eq_true, Bool.or_eq_true, decide_eq_true_eq] at this
      have hty : tyAt Header.decls i = Header.decls[i].1 := by
        unfold tyAt declAt
        rw [List.getElem?_eq_getElem hi]
      refine w.readable_of _ (fun e => ?_) (by rw [hty]; exact this.1.1) (by rw [hty]; exact this.1.2)
      have hmem := this.2.resolve_left fun h => h (hty ▸ e)
      simp only [List.contains_eq_mem, List.mem_cons, List.not_mem_nil, or_false,
        decide_eq_true_eq] at hmem
      rcases hmem with rfl | rfl | rfl | rfl
      · exact hd.1
      · exact hd.2.1
      · exact hd.2.2.1
      · exact hd.2.2.2
    · have hty : tyAt Header.decls i = .unit := by
        unfold tyAt declAt
        rw [List.getElem?_eq_none (by omega)]
      exact w.readable_of _ (fun e => by rw [hty] at e; cases e) (by rw [hty]; simp) (by rw [hty]; simp)
  obtain ⟨h1, hf, hval⟩ := foldHeader_ok Header.vars r.version r Header.cmds hok (by
    intro c hc _ hv hfv p hp
    have hcok := List.all_eq_true.mp hok c hc
    unfold HCmd.ok at hcok
    rw [hfv] at hcok
    simp only [Bool.and_eq_true] at hcok
    cases hcmd : c.g.cmd with
    | const => rw [hcmd] at hcok; cases hcok.2
    | computed => rw [hcmd] at hcok; cases hcok.2
    | field j w =>
      rw [hcmd] at hcok hp
      simp only [Bool.and_eq_true] at hcok
      exact w.undoneBy_accepts hv.arms j hcok.2.2 _ (hread j w) p hp) h0
  refine ⟨h1, ?_, fun i hrep => ⟨fun hw => ?_, fun hw => ?_⟩⟩
  · refine headerLoop_fold Header.vars r.version r Header.cmds (fun c hc k hk => ?_) _ rfl rest h0
      h1 hf _ ?_
    · have := List.all_eq_true.mp hok c hc
      unfold HCmd.ok at this
      rw [Bool.and_eq_true] at this
      have := List.all_eq_true.mp this.1 k hk
      simpa [and_assoc] using this
    · simp [Header.body]
  · rw [hval i hrep]
    by_cases hn : i ∈ Header.nondet
    · exact afterAll_one i _ _ r (List.all_eq_true.mp Header.ones i hn) _ (.inl hw)
    · have hnl : (tyAt Header.decls i).grows = false := by
        by_cases hi : i < Header.decls.length
        · have := List.all_eq_true.mp Header.noLists _ (List.getElem_mem hi)
          have hty : tyAt Header.decls i = Header.decls[i].1 := by
            unfold tyAt declAt
            rw [List.getElem?_eq_getElem hi]
          rw [hty]
          simpa using this
        · have hty : tyAt Header.decls i = .unit := by
            unfold tyAt declAt
            rw [List.getElem?_eq_none (by omega)]
          rw [hty]
          rfl
      exact afterAll_written i _ _ r hrep hnl _
        (.inl (hfresh i hn)) (.inl hw)
  · rw [hval i hrep]
    exact afterAll_not_written i _ _ r _ hw

/-- Satisfiable: a header of version R2018 with a changed layer name. -/
example : ∃ r : Header, r.version = .r2018 ∧ r.DatesReadable ∧ (r 22 : Str) = str!"WALLS" ∧
    Header.Fresh (Rec.dflt Header.decls) :=
  ⟨Rec.set (Rec.set (Rec.dflt _) 0 (.r2018 : Version)) 22 (str!"WALLS" : Str), rfl,
    by refine ⟨⟨1000000000, ?_⟩, ⟨1000000000, ?_⟩, ⟨1000000000, ?_⟩, ⟨1000000000, ?_⟩⟩ <;>
      decide +kernel, rfl, fun _ _ => rfl⟩

/-! ### Which variables and fields are covered -/

/-- All variables that are written are also read, but for three. -/
theorem C19_unread :
    (Header.cmds.filter fun c => (findVar Header.vars c.name).isNone).map (·.name) =
      [str!"$DIMSD1", str!"$DIMSD2", str!"$DIMATFIT"] := by
  decide +kernel

/-- The fields that no statement of a version writes to a variable the reader knows. -/
def Header.omitted (v : Version) : List Nat :=
  (List.range Header.decls.length).filter fun i =>
    !Header.known.any fun g => g.writes i && versionGate g.min g.max v

/-- R2018 omits settings of old versions, and among them the placement of dimension text and
arrows (76), whose variable `$DIMATFIT` is written but not read. -/
theorem C19_omitted_r2018 : Header.omitted .r2018 =
    [15, 17, 26, 76, 78, 116, 134, 135, 138, 139, 140, 199] ++ List.range' 263 14 := by
  decide +kernel

/-- What R2000 omits. -/
theorem C19_omitted_r2000 : Header.omitted .r2000 =
    [3, 4, 15, 17, 26, 28, 76, 78] ++ List.range' 95 10 ++ [116, 134, 138, 139, 140, 199] ++
      List.range' 221 56 := by
  decide +kernel

/-- What R12 omits. -/
theorem C19_omitted_r12 : Header.omitted .r12 =
    List.range' 1 4 ++ List.range' 25 4 ++ List.range' 71 34 ++ [119, 120, 123, 125, 147] ++
      List.range' 152 9 ++ List.range' 165 8 ++ [188] ++ List.range' 198 79 := by
  decide +kernel

set_option maxRecDepth 20000 in
theorem header_conds (r : Header) : ∀ c ∈ Header.cmds,
    (([28, 213, 252, 259, 260].any fun k => c.g.writes k) || c.g.cond r) = true :=
  List.all_eq_true.mp (rfl : (Header.cmds.all fun c =>
    (([28, 213, 252, 259, 260].any fun k => c.g.writes k) || c.g.cond r)) = true)

theorem header_cond (h0 r : Header) (k : Nat) (hn : k ∉ Header.nondet) (c : HCmd Header.decls)
    (hf : (Header.cmds.filter fun c => c.g.writes k) = [c])
    (hb : c.g.cond r = false → Rec.dflt Header.decls k = r k) (c' : HCmd Header.decls)
    (hc : c' ∈ Header.cmds) (hk : c'.g.writes k = true) :
    c'.g.cond r = true ∨ ∀ i, c'.g.writes i = true → (Header.Fresh h0 → h0 i = r i) := by
  have hm := List.mem_filter (p := fun c : HCmd Header.decls => c.g.writes k).mpr ⟨hc, hk⟩
  rw [hf, List.mem_singleton] at hm
  subst hm
  by_cases hcd : c'.g.cond r = true
  · exact .inl hcd
  · refine .inr fun i hi hfr => ?_
    have : i = k := by
      unfold GCmd.writes at hi hk
      split at hi
      · rename_i hcm
        rw [hcm] at hk
        simp only [beq_iff_eq] at hi hk
        omega
      · cases hi
    subst this
    rw [hfr _ hn, hb (by simpa using hcd)]

theorem handle_cond {h : Handle} (e : (!(Ty.rustEq .handle h (0#64 : Handle))) = false) :
    (0#64 : Handle) = h := by
  simp only [Ty.rustEq, Bool.not_eq_false', decide_eq_true_eq] at e
  exact e.symm

set_option maxRecDepth 20000 in
theorem header_handles :
    (∃ m, (Header.cmds.filter fun c => c.g.writes 28) = [⟨str!"$DRAGVS", {
      cmd := .field 28 (.one 349 .handle)
      min := m
      cond := fun r => !(Ty.rustEq .handle (r 28) (0#64 : Handle)) }⟩]) ∧
    (∃ m, (Header.cmds.filter fun c => c.g.writes 213) = [⟨str!"$CEPSNID", {
      cmd := .field 213 (.one 390 .handle)
      min := m
      cond := fun r => !(Ty.rustEq .handle (r 213) (0#64 : Handle)) }⟩]) ∧
    (∃ m, (Header.cmds.filter fun c => c.g.writes 252) = [⟨str!"$CMATERIAL", {
      cmd := .field 252 (.one 347 .handle)
      min := m
      cond := fun r => !(Ty.rustEq .handle (r 252) (0#64 : Handle)) }⟩]) ∧
    (∃ m, (Header.cmds.filter fun c => c.g.writes 259) = [⟨str!"$INTERFEREOBJVS", {
      cmd := .field 259 (.one 345 .handle)
      min := m
      cond := fun r => !(Ty.rustEq .handle (r 259) (0#64 : Handle)) }⟩]) ∧
    (∃ m, (Header.cmds.filter fun c => c.g.writes 260) = [⟨str!"$INTERFEREVPVS", {
      cmd := .field 260 (.one 346 .handle)
      min := m
      cond := fun r => !(Ty.rustEq .handle (r 260) (0#64 : Handle)) }⟩]) :=
  ⟨⟨_, rfl⟩, ⟨_, rfl⟩, ⟨_, rfl⟩, ⟨_, rfl⟩, ⟨_, rfl⟩⟩

/-- A field that the version does not omit is restored (if representable) whatever the header
holds: it is written, or it is one of the five handles that are left out when empty, which is
what a fresh header has. -/
theorem C19_restored (h0 : Header) (hfresh : h0.Fresh) (r : Header) (hd : r.DatesReadable)
    (rest : Stream) :
    ∃ r' : Header,
      Header.read h0 (toStream (Header.body r) ++ some (.ok (.newStr 0 str!"ENDSEC")) :: rest) =
        (.ok r', some (.ok (.newStr 0 str!"ENDSEC")) :: rest) ∧
      ∀ i, i < Header.decls.length → i ∉ Header.omitted r.version →
        Representable Header.known r.version r i → r' i = r i := by
  obtain ⟨r', h1, h2⟩ := C19_header h0 hfresh r hd rest
  refine ⟨r', h1, fun i hi hom hrep => ?_⟩
  by_cases hw : Written Header.known r.version r i
  · exact (h2 i hrep).1 hw
  · rw [(h2 i hrep).2 hw]
    have hex : ∃ g ∈ Header.known, g.writes i = true ∧ versionGate g.min g.max r.version = true := by
      by_contra hc
      refine hom (List.mem_filter.mpr ⟨List.mem_range.mpr hi, ?_⟩)
      rw [Bool.not_eq_true', Bool.eq_false_iff]
      intro h
      obtain ⟨g, hg, hgw⟩ := List.any_eq_true.mp h
      rw [Bool.and_eq_true] at hgw
      exact hc ⟨g, hg, hgw⟩
    obtain ⟨g, hg, hgw, hgv⟩ := hex
    have hcond : ¬ g.cond r = true := fun h =>
      hw ⟨g, hg, hgw, by rw [GCmd.holds, hgv, h]; rfl⟩
    have hall : ∀ g ∈ Header.known, g.cond r = true ∨
        ∀ i, g.writes i = true → (Header.Fresh h0 → h0 i = r i) := by
      intro g hg
      obtain ⟨c, hc, rfl⟩ := List.mem_map.mp hg
      have hc := (List.mem_filter.mp hc).1
      have hcc := header_conds r c hc
      simp only [List.any_cons, List.any_nil, Bool.or_false, Bool.or_eq_true] at hcc
      rcases hcc with (h | h | h | h | h) | h
      · exact header_cond h0 r 28 (by decide) _ header_handles.1.choose_spec handle_cond c hc h
      · exact header_cond h0 r 213 (by decide) _ header_handles.2.1.choose_spec handle_cond c hc h
      · exact header_cond h0 r 252 (by decide) _ header_handles.2.2.1.choose_spec handle_cond c hc h
      · exact header_cond h0 r 259 (by decide) _ header_handles.2.2.2.1.choose_spec handle_cond c hc h
      · exact header_cond h0 r 260 (by decide) _ header_handles.2.2.2.2.choose_spec handle_cond c hc h
      · exact .inl h
    exact ((hall g hg).resolve_left hcond) i hgw hfresh

/-! ### What is lost -/

set_option maxRecDepth 20000 in
theorem header_dimatfit : (Header.cmds.filter fun c => decide (c.name = str!"$DIMATFIT")) =
    [⟨str!"$DIMATFIT", { cmd := .field 76 (.one 70 (.enumI16 E.dimensionFit))
                         min := some .r2000 }⟩] := rfl

theorem header_76 : ∀ v ∈ Version.all, .r2000 ≤ v →
    (Header.known.all fun g => !(g.writes 76 && versionGate g.min g.max v)) = true := by
  decide +kernel

/-- The placement of dimension text and arrows is lost by saving as R2000 or newer, in every
header: the reader does not know the variable in which it is written. -/
theorem C19_dimatfit_lost (h0 : Header) (hfresh : h0.Fresh) (r : Header) (hd : r.DatesReadable)
    (hv : .r2000 ≤ r.version) (rest : Stream) :
    (∃ p ∈ Header.body r, p = .newStr 9 str!"$DIMATFIT") ∧
    ∃ r' : Header,
      Header.read h0 (toStream (Header.body r) ++ some (.ok (.newStr 0 str!"ENDSEC")) :: rest) =
        (.ok r', some (.ok (.newStr 0 str!"ENDSEC")) :: rest) ∧
      r' 76 = Rec.dflt Header.decls 76 := by
  constructor
  · refine ⟨_, ?_, rfl⟩
    have hm : (⟨str!"$DIMATFIT", { cmd := .field 76 (.one 70 (.enumI16 E.dimensionFit))
                                   min := some .r2000 }⟩ : HCmd Header.decls) ∈ Header.cmds := by
      exact (List.mem_filter.mp (header_dimatfit ▸ List.mem_singleton.mpr rfl)).1
    refine List.mem_flatMap.mpr ⟨_, hm, ?_⟩
    have hh : GCmd.holds (ds := Header.decls) { cmd := .field 76 (.one 70 (.enumI16 E.dimensionFit))
                                                min := some .r2000 } r.version r = true := by
      rw [GCmd.holds, Bool.and_eq_true]
      exact ⟨by revert hv; generalize r.version = v; cases v <;> decide, rfl⟩
    rw [HCmd.emit, if_pos hh]
    exact List.mem_cons_self
  · obtain ⟨r', h1, h2⟩ := C19_header h0 hfresh r hd rest
    have hn : ¬ Written Header.known r.version r 76 := by
      rintro ⟨g, hg, hw, hh⟩
      have hall := header_76 r.version (by generalize r.version = v; cases v <;> decide) hv
      have := List.all_eq_true.mp hall g hg
      rw [GCmd.holds, Bool.and_eq_true] at hh
      rw [hw, hh.1] at this
      cases this
    refine ⟨r', h1, ?_⟩
    rw [(h2 76 ?_).2 hn, hfresh 76 (by decide)]
    intro g hg hh w hw
    exact absurd ⟨g, hg, by rw [GCmd.writes, hw]; simp, hh⟩ hn

/-- What a header comes back as, seen through `f`. -/
def Header.again {α : Type} (r : Header) (f : Header → α) : Except DxfErr α :=
  (Header.read (Rec.dflt Header.decls) (toStream (Header.body r) ++
    [some (.ok (.newStr 0 str!"ENDSEC"))])).1.map f

/-- Whole seconds since the epoch. -/
def Date.secs (d : Date) : Int := d.tdiv 1000000000

/-- Representability is needed: as R2004 the clipping boundary mode "displayed, not plotted" (224)
becomes "displayed and plotted", the third coordinate of the drawing limits (8) disappears, a halo
gap (225) of 2.5 is cut to 2, and a creation date (122) of midnight, 2 January 1900, becomes one
second past midnight. -/
theorem C19_lossy :
    Header.again
      ((((Rec.set (ds := Header.decls) (Rec.dflt _) 0 (Version.r2004 : Version)).set 224
        (⟨2, by decide⟩ : Fin (List.length E.xrefClippingBoundaryVisibility))).set 8
        (⟨⟨0#64⟩, ⟨0#64⟩, ⟨0x3ff0000000000000#64⟩⟩ : Point)).set 225
        (⟨0x4004000000000000#64⟩ : F64) |>.set 122 (86400000000000 : Date))
      (fun r => ((r 224 : Fin (List.length E.xrefClippingBoundaryVisibility)), (r 8 : Point),
        (r 225 : F64), Date.secs (r 122))) =
    .ok (⟨1, by decide⟩, ⟨⟨0#64⟩, ⟨0#64⟩, ⟨0#64⟩⟩, ⟨0x4000000000000000#64⟩, 86401) := by
  decide +kernel

/-- A file whose creation date is 10^18 makes loading panic. -/
theorem C19_date_panics :
    (Header.read (Rec.dflt Header.decls) (toStream [.newStr 9 str!"$TDCREATE",
      .newF64 40 ⟨0x43abc16d674ec800#64⟩, .newStr 0 str!"ENDSEC"])).1.map (fun r => Date.secs (r 122)) =
      .error .panic := by
  decide +kernel

end Dxf
