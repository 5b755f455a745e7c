import Verif.Spec.Entities
import Verif.Lemmas.EntityConds

/-! C21: entities round trip. -/

namespace Dxf

/-- C21, entities to which no other entities are attached: writing an entity of a kind supported
by the version and reading it back restores its kind, every field the version writes, its extension
groups and its extended data, and stops at the code 0 that follows.

The full claim is false of the code: the fields in `EName.lost` do not survive (`C21_lost_*`), and a
rotated dimension is not restored at all before R13 (`C21_rotated_old`). -/
theorem C21_entity_partial (e : Entity) (hp : e.toFlat.Proper) (v : Version)
    (hs : e.kind.supported v = true) (ho : ¬ e.toFlat.OldRotated v) (writeHandles : Bool)
    (hext : ExtGroup.AllPlain e.entry.ext) (hpost : e.post v writeHandles = [])
    (rest : Stream) (hr : StartsZero rest) :
    ∃ b, e.kind.Restored e.num v writeHandles e.entry b ∧
      Rd.withFuel readEntity (toStream (e.pairs v writeHandles) ++ rest) =
        (.ok (some ⟨e.kind, e.sub, b⟩), rest) := by
  obtain ⟨hnum, hsub⟩ := e.num_num hp ho
  obtain ⟨b, hb, hread⟩ := e.kind.read_front e.num v writeHandles
    (EName.check_num hnum hs writeHandles) e.entry hext e.entry.xdata rest hr
  refine ⟨b, EName.reads_restored hnum hs hb, ?_⟩
  rw [Entity.pairs, EName.pairs, if_pos hs, hpost, List.append_nil, Rd.run_withFuel, hread, hsub]

/-- C21, entities with others attached to them, such as the vertices of a polyline: what is read
stops at the first attached entity.  The extended data is written after the attached entities and
does not become part of the entity again. -/
theorem C21_parent_partial (e : Entity) (hp : e.toFlat.Proper) (v : Version)
    (hs : e.kind.supported v = true) (ho : ¬ e.toFlat.OldRotated v) (writeHandles : Bool)
    (hext : ExtGroup.AllPlain e.entry.ext) (hpost : e.post v writeHandles ≠ []) (rest : Stream) :
    ∃ b, e.kind.Restored e.num v writeHandles { e.entry with xdata := [] } b ∧
      Rd.withFuel readEntity (toStream (e.pairs v writeHandles) ++ rest) =
        (.ok (some ⟨e.kind, e.sub, b⟩), toStream (e.post v writeHandles ++
          e.entry.xdata.flatMap fun x => x.pairs v) ++ rest) := by
  obtain ⟨hnum, hsub⟩ := e.num_num hp ho
  have hz : StartsZero (toStream (e.post v writeHandles ++
      e.entry.xdata.flatMap fun x => x.pairs v) ++ rest) := by
    rw [toStream_append, List.append_assoc]
    exact (e.post_zero v writeHandles).starts hpost _
  obtain ⟨b, hb, hread⟩ := e.kind.read_front e.num v writeHandles
    (EName.check_num hnum hs writeHandles) e.entry hext [] _ hz
  refine ⟨b, EName.reads_restored hnum hs hb, ?_⟩
  rw [List.flatMap_nil, List.append_nil] at hread
  rw [Entity.pairs, EName.pairs, if_pos hs, List.append_assoc, toStream_append, List.append_assoc,
    Rd.run_withFuel, hread, hsub]

/-- Satisfiable: a circle with an extension group and extended data, a radial dimension with
handles in R12, a polyline without vertices. -/
example : ∃ e : Entity, e.kind = .circle ∧ e.toFlat.Proper ∧ e.kind.supported .r2018 = true ∧
    ¬ e.toFlat.OldRotated .r2018 ∧ e.entry.xdata ≠ [] ∧ ExtGroup.AllPlain e.entry.ext ∧
    e.entry.ext ≠ [] ∧ e.post .r2018 true = [] :=
  ⟨⟨⟨.circle, 0, ⟨Rec.dflt _, [⟨str!"A", [.pair (.newI16 70 3#16)]⟩],
    [⟨str!"B", [.integer 1#16]⟩]⟩⟩, Extra.dflt⟩, rfl, rfl, rfl, by simp [Flat.OldRotated], by simp,
    by simp [ExtGroup.AllPlain, ExtItem.PlainList, ExtItem.Plain, CodePair.newI16], by simp, rfl⟩

example : ∃ e : Entity, e.kind = .dimension ∧ e.toFlat.Proper ∧ e.kind.supported .r12 = true ∧
    ¬ e.toFlat.OldRotated .r12 ∧ e.post .r12 true = [] :=
  ⟨⟨⟨.dimension, 2, Entry.dflt _⟩, Extra.dflt⟩, rfl, by simp [Flat.Proper], rfl,
    by simp [Flat.OldRotated], rfl⟩

example : ∃ e : Entity, e.kind = .polyline ∧ e.toFlat.Proper ∧ e.kind.supported .r2018 = true ∧
    ¬ e.toFlat.OldRotated .r2018 ∧ e.post .r2018 true ≠ [] ∧ ExtGroup.AllPlain e.entry.ext :=
  ⟨⟨⟨.polyline, 0, Entry.dflt _⟩, Extra.dflt⟩, rfl, rfl, rfl, by simp [Flat.OldRotated],
    by simp [Entity.post, seqendPairs], by simp [ExtGroup.AllPlain, Entry.dflt]⟩

/-- A kind that the version does not support is not written at all. -/
theorem C21_unsupported (e : Entity) (v : Version) (writeHandles : Bool)
    (hs : e.kind.supported v = false) : e.pairs v writeHandles = [] := by
  simp [Entity.pairs, EName.pairs, hs]

example : EName.helix.supported .r2000 = false := rfl

/-! ### Which fields are written -/

/-- The version has a statement for field `i`. -/
def EName.Offers (k : EName) (n : Nat) (v : Version) (i : Nat) : Prop :=
  ∃ g ∈ k.statements n true, g.writes i = true ∧ versionGate g.min g.max v = true

/-- Every field for which the version has a statement comes back whatever it holds: with its own
value, or with the default value if it was equal to that (in Rust's sense, in which 0.0 = -0.0). -/
theorem C21_offered (k : EName) (n : Nat) (v : Version) (a b : Entry k.decls)
    (h : k.Restored n v true a b) (i : Nat) (hl : i ∉ k.lost v) (hp : i ∉ k.packed)
    (hrep : Representable (k.statements n true) v a.fields i) (ho : k.Offers n v i) :
    b.fields i = a.fields i ∨
    (b.fields i = Rec.dflt k.decls i ∧
      (tyAt k.decls i).rustEq (a.fields i) (Rec.dflt k.decls i) = true) := by
  rw [h.1 i hl hp hrep]
  split
  · exact .inl rfl
  · rename_i hw
    refine .inr ⟨rfl, ?_⟩
    obtain ⟨g, hg, hgw, hgate⟩ := ho
    have ht := tame k n g hg
    have hgh : g.cond a.fields ≠ true := fun hc =>
      hw ⟨g, hg, hgw, by rw [GCmd.holds, hgate, hc]; rfl⟩
    rw [onField_writes] at hgw
    obtain ⟨w, hw⟩ := Option.isSome_iff_exists.mp hgw
    have hcmd := onField_eq hw
    unfold Tame at ht
    rw [hcmd] at ht
    exact (ht a.fields).resolve_left hgh

/-- The fields of a kind for which version `v` has no statement. -/
def EName.omitted (k : EName) (n : Nat) (v : Version) : List Nat :=
  (List.range k.decls.length).filter fun i =>
    !(k.statements n true).any fun g => g.writes i && versionGate g.min g.max v

theorem EName.offers_of (k : EName) (n : Nat) (v : Version) (i : Nat) (hi : i < k.decls.length)
    (hom : i ∉ k.omitted n v) : k.Offers n v i := by
  by_contra hw
  refine hom (List.mem_filter.mpr ⟨List.mem_range.mpr hi, ?_⟩)
  rw [Bool.not_eq_true', Bool.eq_false_iff]
  intro h
  obtain ⟨g, hg, hgw⟩ := List.any_eq_true.mp h
  rw [Bool.and_eq_true] at hgw
  exact hw ⟨g, hg, hgw.1, hgw.2⟩

/-- R2018 has a statement for every field of every kind except: the old `elevation` (5, which only
light-weight polylines still write), lengths of lists, `contains_vertices` of polylines (18, always
there) and whether an insert has attributes (18).  For dimensions the packed fields (22, 32, 33,
34) are also missing here, and the fields of the other kinds of dimensions. -/
theorem C21_complete_r2018 :
    (EName.all.filter fun k => decide (k.omitted 0 .r2018 ≠ [5])).map
      (fun k => (k, k.omitted 0 .r2018)) =
    [(.attributeDefinition, [5, 40]), (.attribute, [5, 39]), (.image, [5, 31]), (.insert, [5, 18]),
      (.leader, [5, 26]), (.lwPolyline, []), (.mLine, [5, 23, 30, 32]), (.polyline, [5, 18]),
      (.section, [5, 27, 29]), (.spline, [5, 21, 22, 23]), (.wipeout, [5, 31]),
      (.dimension, 5 :: 22 :: List.range' 32 11)] ∧
    EName.dimension.omitted 1 .r2018 = [5, 22, 32, 33, 34, 40, 41, 42] ∧
    EName.dimension.omitted 2 .r2018 = [5, 22, 32, 33, 34, 35, 37, 38, 39, 41, 42] ∧
    EName.dimension.omitted 3 .r2018 = [5, 22, 32, 33, 34, 35, 37, 38, 39, 41, 42] ∧
    EName.dimension.omitted 4 .r2018 = [5, 22, 32, 33, 34, 35, 38, 39, 40] ∧
    EName.dimension.omitted 5 .r2018 = [5, 22, 32, 33, 34, 35, 38, 39, 40, 41, 42] := by
  decide +kernel

/-- What R2000 omits beyond that: material, 24-bit colour, colour name, transparency, plot style
and shadow mode (6, 13 to 17), and some fields of seven kinds. -/
theorem C21_complete_r2000 :
    (EName.all.map fun k => (k, (k.omitted 0 .r2000).filter fun i =>
        decide (i ∉ k.omitted 0 .r2018 ∧ i ∉ [6, 13, 14, 15, 16, 17]))).filter (·.2 ≠ []) =
    [(.solid3D, [21]), (.attributeDefinition, [30, 36, 37, 38, 39, 41, 42, 43, 44]),
      (.attribute, [22, 35, 36, 37, 38, 40, 41, 42, 43]), (.image, [33]), (.vertex, [28]),
      (.wipeout, [33]), (.dimension, [18])] := by
  decide +kernel

/-- What R12 omits beyond R2000, of the kinds it supports. -/
theorem C21_complete_r12 :
    ((EName.all.filter (·.supported .r12)).map fun k => (k, (k.omitted 0 .r12).filter fun i =>
        decide (i ∉ k.omitted 0 .r2000))).filter (·.2 ≠ [8, 9, 10, 11, 12]) =
    [(.dimension, [8, 9, 10, 11, 12, 23, 24, 25, 26])] := by
  decide +kernel

/-! ### What is lost -/

/-- The check behind `C21_rotated_old`. -/
def EName.rotatedCheck (v : Version) (wh : Bool) : Bool :=
  match annotate EName.dimension.kind.next EName.dimension.vals Mode.start
    (gated v (EName.dimension.statements 1 wh)) with
  | none => false
  | some (as, m) =>
    (as.all fun x => (x.2.cmd.safeL (EName.dimension.kind.arms x.1) ||
      EName.dimension.exempt x.1 x.2.cmd) && x.2.cmd.codes.all plainCode) &&
    decide (EName.dimension.kind.sub m = none)

theorem EName.rotatedCheck_all : ∀ v ∈ Version.all, ∀ wh, .r13 ≤ v ∨ EName.rotatedCheck v wh = true := by
  decide +kernel

/-- A rotated dimension written for a version before R13 is lost: the subclass marker that tells
the kinds of dimensions apart is not written, and reading drops the entity without an error. -/
theorem C21_rotated_old (a : Entry EName.dimension.decls) (x : Extra) (v : Version)
    (hv : ¬ .r13 ≤ v) (writeHandles : Bool) (hext : ExtGroup.AllPlain a.ext) (rest : Stream)
    (hr : StartsZero rest) (fuel : Nat) :
    readEntity (fuel + 1)
      (toStream (Entity.pairs v writeHandles ⟨⟨.dimension, 1, a⟩, x⟩) ++ rest) =
    readEntity fuel rest := by
  have hc := (EName.rotatedCheck_all v (version_mem v) writeHandles).resolve_left hv
  unfold EName.rotatedCheck at hc
  split at hc
  · cases hc
  · rename_i as m ha
    simp only [Bool.and_eq_true, List.all_eq_true, decide_eq_true_eq, Bool.or_eq_true] at hc
    obtain ⟨r, -, hread⟩ := EName.dimension.read_written v
      (commonHead EName.dimension.kind.spec writeHandles)
      (commonCmds EName.dimension.kind.spec writeHandles ++ EName.dimension.kind.cmds 1)
      (EName.dimension.steady 1 writeHandles) ha (fun x hx => (hc.1 x hx).1)
      (fun x hx => List.all_eq_true.mpr (hc.1 x hx).2) a hext a.xdata rest hr
    have := hread fuel
    rw [← EName.front_written, hc.2] at this
    have hsup : EName.dimension.supported v = true := rfl
    simp only [Entity.pairs, EName.pairs, Entity.num, Entity.post, hsup, if_true,
      List.append_nil]
    exact this

example : (readEntity 3 (toStream (Entity.pairs .r12 true
    ⟨⟨.dimension, 1, Entry.dflt _⟩, Extra.dflt⟩ ++ [.newStr 0 str!"ENDSEC"]))).1.map
      (fun x => x.isNone) = .ok true := by
  decide +kernel

/-- What one entity comes back as, seen through `f`. -/
def EName.again {α : Type} (k : EName) (v : Version) (r : Rec k.decls) (f : Rec k.decls → α) :
    Except DxfErr (Option α) :=
  (Rd.withFuel readEntity (toStream (k.front 0 v true ⟨r, [], []⟩ ++
    [.newStr 0 str!"ENDSEC"]))).1.map fun x => x.bind fun x =>
      if h : x.kind = k then some (f (h ▸ x.entry.fields)) else none

/-- `lost` cannot be made smaller: the owner of a proxy entity becomes an object id. -/
theorem C21_lost_proxy_owner :
    EName.proxyEntity.again .r2018 (Rec.set (Rec.dflt _) 1 (7#64 : Handle))
      (fun r => ((r 1 : Handle), (r 24 : List Str))) = .ok (some (0#64, [str!"7"])) := by
  decide +kernel

/-- The preview and the entity data of a proxy entity are read as its graphics data. -/
theorem C21_lost_proxy_preview :
    EName.proxyEntity.again .r2018
      ((Rec.set (Rec.dflt EName.proxyEntity.decls) 12 ([[1#8]] : List (List Byte))).set 23 ([[2#8]] : List (List Byte)))
      (fun r => ((r 12 : List (List Byte)), (r 21 : List (List Byte)), (r 23 : List (List Byte)))) =
      .ok (some ([], [[1#8], [2#8]], [])) := by
  decide +kernel

/-- In R2007 the lock of an attribute is read as its version. -/
theorem C21_lost_attribute_lock :
    EName.attribute.again .r2007 (Rec.set (Rec.dflt _) 35 (true : Bool))
      (fun r => (r 35 : Bool)) = .ok (some false) := by
  decide +kernel

/-- From R2010 on it survives. -/
theorem C21_attribute_lock_new :
    EName.attribute.again .r2010 (Rec.set (Rec.dflt _) 35 (true : Bool))
      (fun r => (r 35 : Bool)) = .ok (some true) := by
  decide +kernel

/-- The vertices of an `MLine` are lost; the last coordinates become its start point. -/
theorem C21_lost_mline_vertices :
    EName.mLine.again .r2018
      (Rec.set (Rec.dflt _) 27 (⟨[], [], [], [⟨⟨1#64⟩, ⟨2#64⟩, ⟨3#64⟩⟩]⟩ : PtAcc))
      (fun r => ((r 27 : PtAcc).pts.length, (r 25 : Point))) =
      .ok (some (0, ⟨⟨1#64⟩, ⟨2#64⟩, ⟨3#64⟩⟩)) := by
  decide +kernel

/-- The line type scale of an `MText` is lost. -/
theorem C21_lost_mtext_scale :
    EName.mText.again .r2018 (Rec.set (Rec.dflt _) 9 (⟨0x4000000000000000#64⟩ : F64))
      (fun r => (r 9 : F64)) = .ok (some ⟨0x3ff0000000000000#64⟩) := by
  decide +kernel

/-- The 24-bit colour and the colour name of an `MText` are lost. -/
theorem C21_lost_mtext_color :
    EName.mText.again .r2018 ((Rec.set (Rec.dflt EName.mText.decls) 13 (7#32 : I32)).set 14 (str!"x" : Str))
      (fun r => ((r 13 : I32), (r 14 : Str))) = .ok (some (0#32, [])) := by
  decide +kernel

/-- The number of columns of an `MText` is replaced by the number of its column heights. -/
theorem C21_lost_mtext_columns :
    EName.mText.again .r2018 (Rec.set (Rec.dflt _) 40 (7#32 : I32))
      (fun r => (r 40 : I32)) = .ok (some 0#32) := by
  decide +kernel

/-- The preview of an `OleFrame` becomes part of its data. -/
theorem C21_lost_ole_preview :
    EName.oleFrame.again .r2018
      ((Rec.set (Rec.dflt EName.oleFrame.decls) 12 ([[1#8]] : List (List Byte))).set 20 ([[2#8]] : List (List Byte)))
      (fun r => ((r 12 : List (List Byte)), (r 20 : List (List Byte)))) =
      .ok (some ([], [[1#8], [2#8]])) ∧
    EName.ole2Frame.again .r2018
      ((Rec.set (Rec.dflt EName.ole2Frame.decls) 12 ([[1#8]] : List (List Byte))).set 25 ([[2#8]] : List (List Byte)))
      (fun r => ((r 12 : List (List Byte)), (r 25 : List (List Byte)))) =
      .ok (some ([], [[1#8], [2#8]])) := by
  decide +kernel

/-- The preview size of a `Section` is lost. -/
theorem C21_lost_section_count :
    EName.section.again .r2018 (Rec.set (Rec.dflt _) 11 (7#32 : I32))
      (fun r => (r 11 : I32)) = .ok (some 0#32) := by
  decide +kernel

/-- The points of an underlay come back as something else. -/
theorem C21_lost_underlay_points :
    EName.pdfUnderlay.again .r2018
      (Rec.set (Rec.dflt _) 28 (⟨[], [], [], [⟨⟨1#64⟩, ⟨2#64⟩, ⟨0#64⟩⟩]⟩ : PtAcc))
      (fun r => (r 28 : PtAcc).pts) ≠ .ok (some [⟨⟨1#64⟩, ⟨2#64⟩, ⟨0#64⟩⟩]) := by
  decide +kernel

/-- The clipping vertices of a `Wipeout` come back as something else. -/
theorem C21_lost_wipeout_vertices :
    EName.wipeout.again .r2018
      (Rec.set (Rec.dflt _) 32 (⟨[], [], [], [⟨⟨1#64⟩, ⟨2#64⟩, ⟨0#64⟩⟩]⟩ : PtAcc))
      (fun r => (r 32 : PtAcc).pts) ≠ .ok (some [⟨⟨1#64⟩, ⟨2#64⟩, ⟨0#64⟩⟩]) := by
  decide +kernel

end Dxf
