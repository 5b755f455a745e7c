import Verif.Lemmas.ObjectRead
import Verif.Lemmas.EntityConds
import Verif.Spec.Pairs

/-! C22: objects round trip. -/

namespace Dxf

/-- C22: writing a regular object of a kind supported by the version does not panic; reading the
result back restores its kind, every field the version writes, its extension groups and its
extended data, and what `OName.listsBack` says about its lists, and stops at the code 0 that
follows.

The full claim is false of the code: the fields in `OName.lost` do not survive (`C22_lost_sharp`),
neither do some of the lists (`C22_lists_*`), and the objects that are not `Regular` come back as
something else, or not at all (`C22_irregular_*`). -/
theorem C22_partial (o : Object) (hreg : o.Regular) (v : Version) (hs : o.kind.supported v = true)
    (hext : ExtGroup.AllPlain o.entry.ext) (rest : Stream) (hr : StartsZero rest) :
    ∃ pairs b, o.pairs v = .ok pairs ∧ o.kind.Restored v o.entry b ∧
      Rd.withFuel readObject (toStream pairs ++ rest) =
        (.ok (some ⟨o.kind, b, o.kind.listsBack o.extra⟩), rest) := by
  obtain ⟨pairs, b, hp, hb, hread⟩ := OName.read_object hreg v hs hext rest hr
  exact ⟨pairs, b, hp, hb, hread _⟩

/-- Satisfiable: a dictionary with entries, an extension group and extended data; a `GeoData` with
a mesh; a `SectionSettings` with a section. -/
example : ∃ o : Object, o.kind = .dictionary ∧ o.Regular ∧ o.kind.supported .r2018 = true ∧
    ExtGroup.AllPlain o.entry.ext ∧ o.entry.ext ≠ [] ∧ o.entry.xdata ≠ [] ∧ o.extra.dict ≠ [] :=
  ⟨⟨.dictionary, ⟨Rec.dflt _, [⟨str!"A", [.pair (.newI16 70 3#16)]⟩], [⟨str!"B", [.integer 1#16]⟩]⟩,
    { dict := [(str!"a", 1#64), (str!"b", 2#64)] }⟩, rfl, by simp [Object.Regular, Str.lt], rfl,
    by simp [ExtGroup.AllPlain, ExtItem.PlainList, ExtItem.Plain, CodePair.newI16], by simp,
    by simp, by simp⟩

example : ∃ o : Object, o.kind = .geoData ∧ o.Regular ∧ o.kind.supported .r2018 = true ∧
    o.extra.mesh ≠ [] :=
  ⟨⟨.geoData, Entry.dflt _, { mesh := [(⟨.zero, .zero, .zero⟩, ⟨.zero, .zero, .zero⟩)] }⟩, rfl,
    trivial, rfl, by simp⟩

example : ∃ o : Object, o.kind = .sectionSettings ∧ o.Regular ∧ o.kind.supported .r2018 = true ∧
    o.extra.sections ≠ [] :=
  ⟨⟨.sectionSettings, Entry.dflt _, { sections := [{}] }⟩, rfl, .inr ⟨⟨_, rfl⟩, rfl⟩, rfl, by simp⟩

/-- A kind that the version does not support is not written at all. -/
theorem C22_unsupported (o : Object) (v : Version) (hs : o.kind.supported v = false) :
    o.pairs v = .ok [] := by
  simp [Object.pairs, hs, pure, Except.pure]

example : OName.geoData.supported .r2000 = false := rfl

theorem nextObject_some {s s' : Stream} {x : Option Object}
    (h : Rd.withFuel readObject s = (.ok x, s')) : nextObject s = (.ok x, s') := by
  rw [nextObject, h]

theorem object_zero {o : Object} {v : Version} {ps : List CodePair} (hs : o.kind.supported v = true)
    (h : o.pairs v = .ok ps) : ∃ p t, ps = p :: t ∧ p.code = 0 := by
  rw [Object.pairs, if_pos hs] at h
  cases ht : o.tail with
  | error e => rw [ht] at h; cases h
  | ok tail =>
    rw [ht] at h
    simp only [bind, Except.bind, pure, Except.pure, Except.ok.injEq] at h
    subst h
    exact ⟨_, _, rfl, rfl⟩

theorem collect_written (os : List Object) (v : Version) (hreg : ∀ o ∈ os, o.Regular)
    (hext : ∀ o ∈ os, ExtGroup.AllPlain o.entry.ext) (rest : Stream) :
    ∃ pairs os', (os.mapM fun o => o.pairs v) = .ok pairs ∧
      List.Forall₂ (Object.Restored v) (os.filter fun o => o.kind.supported v) os' ∧
      StartsZero (toStream (pairs.flatten ++ [.newStr 0 str!"ENDSEC"]) ++ rest) ∧
      ∀ fuel, pairs.flatten.length < fuel → collectObjects fuel
        (toStream (pairs.flatten ++ [.newStr 0 str!"ENDSEC"]) ++ rest) =
          (.ok os', toStream [.newStr 0 str!"ENDSEC"] ++ rest) := by
  induction os with
  | nil =>
    refine ⟨[], [], rfl, .nil, ⟨_, _, rfl, rfl⟩, fun fuel hf => ?_⟩
    obtain ⟨f, rfl⟩ : ∃ f, fuel = f + 1 := ⟨fuel - 1, by simp at hf; omega⟩
    rfl
  | cons o os ih =>
    obtain ⟨ps, os', hm, hf2, hz, hread⟩ := ih (fun o ho => hreg o (List.mem_cons_of_mem _ ho))
      (fun o ho => hext o (List.mem_cons_of_mem _ ho))
    by_cases hs : o.kind.supported v = true
    · obtain ⟨pairs, b, hp, hb, hr⟩ := C22_partial o (hreg o List.mem_cons_self) v hs
        (hext o List.mem_cons_self) _ hz
      obtain ⟨p, t, rfl, h0⟩ := object_zero hs hp
      refine ⟨(p :: t) :: ps, ⟨o.kind, b, o.kind.listsBack o.extra⟩ :: os', ?_, ?_,
        ⟨p, _, rfl, h0⟩, ?_⟩
      · rw [List.mapM_cons, hp, hm]
        rfl
      · rw [List.filter_cons_of_pos (by simpa using hs)]
        exact .cons ⟨b, hb, rfl⟩ hf2
      · intro fuel hl
        rw [List.flatten_cons, List.length_append, List.length_cons] at hl
        obtain ⟨f, rfl⟩ : ∃ f, fuel = f + 1 := ⟨fuel - 1, by omega⟩
        rw [List.flatten_cons, List.append_assoc, toStream_append, List.append_assoc,
          collectObjects, Rd.bind_ok (nextObject_some hr)]
        simp only
        rw [Rd.bind_ok (hread f (by omega))]
        rfl
    · have hp := C22_unsupported o v (by simpa using hs)
      refine ⟨[] :: ps, os', ?_, ?_, ?_, fun fuel hl => ?_⟩
      · rw [List.mapM_cons, hp, hm]
        rfl
      · rw [List.filter_cons_of_neg (by simpa using hs)]
        exact hf2
      · rw [List.flatten_cons, List.nil_append]
        exact hz
      · rw [List.flatten_cons, List.nil_append] at hl ⊢
        exact hread fuel hl

/-- C22 for all the objects of a drawing: those of kinds that the version supports come back, in
the same order. -/
theorem C22_all_partial (os : List Object) (v : Version) (hreg : ∀ o ∈ os, o.Regular)
    (hext : ∀ o ∈ os, ExtGroup.AllPlain o.entry.ext) (rest : Stream) :
    ∃ pairs os', (os.mapM fun o => o.pairs v) = .ok pairs ∧
      List.Forall₂ (Object.Restored v) (os.filter fun o => o.kind.supported v) os' ∧
      readObjects (toStream (pairs.flatten ++ [.newStr 0 str!"ENDSEC"]) ++ rest) =
        (.ok os', toStream [.newStr 0 str!"ENDSEC"] ++ rest) := by
  obtain ⟨pairs, os', hm, hf, _, hread⟩ := collect_written os v hreg hext rest
  refine ⟨pairs, os', hm, hf, ?_⟩
  rw [readObjects, Rd.run_withFuel]
  exact hread _ (by simp; omega)

/-- Satisfiable: three objects, one of which the version does not support. -/
example : ∃ os : List Object, (∀ o ∈ os, o.Regular) ∧
    (∀ o ∈ os, ExtGroup.AllPlain o.entry.ext) ∧
    os.map (·.kind.supported .r2000) = [true, false, true] :=
  ⟨[⟨.dictionary, Entry.dflt _, {}⟩, ⟨.geoData, Entry.dflt _, {}⟩,
    ⟨.mLineStyle, Entry.dflt _, {}⟩], by simp [Object.Regular, OName.Timely],
    by simp [ExtGroup.AllPlain, Entry.dflt], rfl⟩

/-! ### Which fields are written -/

/-- The version has a statement for field `i`. -/
def OName.Offers (k : OName) (v : Version) (i : Nat) : Prop :=
  ∃ g ∈ k.statements, g.writes i = true ∧ versionGate g.min g.max v = true

/-- The fields of a kind for which version `v` has no statement. -/
def OName.omitted (k : OName) (v : Version) : List Nat :=
  (List.range k.decls.length).filter fun i =>
    !k.statements.any fun g => g.writes i && versionGate g.min g.max v

theorem OName.offers_of (k : OName) (v : Version) (i : Nat) (hi : i < k.decls.length)
    (hom : i ∉ k.omitted v) : k.Offers v i := by
  by_contra hw
  refine hom (List.mem_filter.mpr ⟨List.mem_range.mpr hi, ?_⟩)
  rw [Bool.not_eq_true', Bool.eq_false_iff]
  intro h
  obtain ⟨g, hg, hgw⟩ := List.any_eq_true.mp h
  rw [Bool.and_eq_true] at hgw
  exact hw ⟨g, hg, hgw.1, hgw.2⟩

theorem OName.tame (k : OName) (hk : k ≠ .dictionary) : ∀ g ∈ k.statements, Tame g := by
  unfold OName.statements OName.part1 OName.part2
  refine List.forall_mem_append.mpr ⟨?_, List.forall_mem_append.mpr
    ⟨List.forall_mem_append.mpr ⟨?_, ?_⟩, ?_⟩⟩
  · simp only [objectHead]
    repeat' first
      | exact fun _ h => absurd h List.not_mem_nil
      | (refine List.forall_mem_cons.mpr ⟨?_, ?_⟩)
      | exact tame_always (by intro _; with_reducible rfl)
      | exact tame_ne _ _ _ _ rfl
  · simp only [objectCmds]
    repeat' first
      | exact fun _ h => absurd h List.not_mem_nil
      | (refine List.forall_mem_cons.mpr ⟨?_, ?_⟩)
      | exact tame_always (by intro _; with_reducible rfl)
      | exact tame_ne _ _ _ _ rfl
  · cases k
    case dictionary => exact absurd rfl hk
    all_goals
      simp only [OName.kind]
      repeat' first
        | exact fun _ h => absurd h List.not_mem_nil
        | (refine List.forall_mem_cons.mpr ⟨?_, ?_⟩)
        | exact tame_always (by intro _; with_reducible rfl)
  · unfold OName.part3 OName.part4
    cases k
    all_goals
      simp only [OName.kind, List.append_nil]
      first
        | exact fun _ h => absurd h List.not_mem_nil
        | skip
    all_goals
      refine List.forall_mem_append.mpr ⟨?_, ?_⟩
      repeat' first
        | exact fun _ h => absurd h List.not_mem_nil
        | (refine List.forall_mem_cons.mpr ⟨?_, ?_⟩)
        | exact tame_always (by intro _; with_reducible rfl)

/-- Every field for which the version has a statement comes back whatever it holds: with its own
value, or with the default value if it was equal to that (in Rust's sense, in which 0.0 = -0.0).
The exception is whether a dictionary owns its entries (`C22_lost_hard_owner`). -/
theorem C22_offered (k : OName) (hk : k ≠ .dictionary) (v : Version) (a b : Entry k.decls)
    (h : k.Restored v a b) (i : Nat) (hl : i ∉ k.lost v)
    (hrep : Representable k.statements v a.fields i) (ho : k.Offers v i) :
    b.fields i = a.fields i ∨
    (b.fields i = Rec.dflt k.decls i ∧
      (tyAt k.decls i).rustEq (a.fields i) (Rec.dflt k.decls i) = true) := by
  rw [h.1 i hl hrep]
  split
  · exact .inl rfl
  · rename_i hw
    refine .inr ⟨rfl, ?_⟩
    obtain ⟨g, hg, hgw, hgate⟩ := ho
    have ht := k.tame hk g hg
    have hgh : g.cond a.fields ≠ true := fun hc =>
      hw ⟨g, hg, hgw, by rw [GCmd.holds, hgate, hc]; rfl⟩
    rw [onField_writes] at hgw
    obtain ⟨w, hw⟩ := Option.isSome_iff_exists.mp hgw
    have hcmd := onField_eq hw
    unfold Tame at ht
    rw [hcmd] at ht
    exact (ht a.fields).resolve_left hgh

/-- R2018 has a statement for every field of every kind except, besides fields in `lost`: the
private lists of proxies, fields and geographic data; the old fields of `Field`; the lights of a
`LightList` (written with its lists); `specular_gloss_factor` and `map_v_tile` of a `Material` (18
and 94, really missing); and the fields of sections that `SectionSettings` only declares. -/
theorem C22_complete_r2018 :
    (OName.all.map fun k => (k, (k.omitted .r2018).filter fun i =>
        decide (i ∉ k.lost .r2018))).filter (·.2 ≠ []) =
    [(.acadProxyObject, [8, 9, 10]), (.field, [6, 9, 10, 11, 12, 13, 20, 21, 23, 24, 28]),
      (.geoData, [23, 24, 25, 26, 28, 29, 30]), (.lightList, [3]), (.material, [18, 94]),
      (.sectionSettings, [3, 4, 5, 6])] := by
  decide +kernel

/-- What R2000 omits beyond that, of the kinds it supports. -/
theorem C22_complete_r2000 :
    ((OName.all.filter (·.supported .r2000)).map fun k => (k, (k.omitted .r2000).filter fun i =>
        decide (i ∉ k.omitted .r2018 ∧ i ∉ k.lost .r2000))).filter (·.2 ≠ []) =
    [(.plotSettings, [26, 27, 28])] := by
  decide +kernel

/-! ### What is lost -/

/-- Some value of a type; `d` is the default value of a field. -/
def Ty.sample : (t : Ty) → t.den → Nat → t.den
  | .bool, _, n => decide (n % 2 = 0)
  | .i16, _, n => BitVec.ofNat 16 (n + 1)
  | .i32, _, n => BitVec.ofNat 32 (n + 1)
  | .i64, _, n => BitVec.ofNat 64 (n + 1)
  | .f64, _, n => (⟨BitVec.ofNat 64 (0x4000000000000000 + n)⟩ : F64)
  | .str, _, n => [Char.ofNat (65 + n)]
  | .handle, _, n => BitVec.ofNat 64 (n + 1)
  | .bytes, _, n => [BitVec.ofNat 8 (n + 1)]
  | .point, _, n => (⟨.zero, .zero, ⟨BitVec.ofNat 64 (0x4000000000000000 + n)⟩⟩ : Point)
  | .uuid, _, n => BitVec.ofNat 128 n
  | .enum vals, d, n => ⟨((d : Fin vals.length).val + n + 1) % vals.length,
      Nat.mod_lt _ (Nat.lt_of_le_of_lt (Nat.zero_le _) (d : Fin vals.length).isLt)⟩
  | .list .str, _, n => ([[Char.ofNat (65 + n)]] : List Str)
  | .list .handle, _, n => ([BitVec.ofNat 64 (n + 1)] : List Handle)
  | .list .f64, _, n => ([⟨BitVec.ofNat 64 (0x4000000000000000 + n)⟩] : List F64)
  | .list .i16, _, n => ([BitVec.ofNat 16 (n + 1)] : List I16)
  | .list .i32, _, n => ([BitVec.ofNat 32 (n + 1)] : List I32)
  | .list .bytes, _, n => ([[BitVec.ofNat 8 (n + 1)]] : List (List Byte))
  | _, d, _ => d

/-- An object without lists, with a value in every field. -/
def OName.sample (k : OName) (n : Nat) : Rec k.decls := fun i =>
  Ty.sample _ (Rec.dflt k.decls i) (if n = 0 then 0 else i / n + n)

/-- What the fields of an object come back as. -/
def OName.again (k : OName) (v : Version) (r : Rec k.decls) (x : OExtra) :
    Except DxfErr (Option (Rec k.decls × OExtra)) := do
  let ps ← Object.pairs v ⟨k, ⟨r, [], []⟩, x⟩
  let o ← (Rd.withFuel readObject (toStream (ps ++ [.newStr 0 str!"ENDSEC"]))).1
  return o.bind fun o => if h : o.kind = k then some (h ▸ o.entry.fields, o.extra) else none

/-- The fields of a sample that come back with another value. -/
def OName.changed (k : OName) (v : Version) (n : Nat) : List Nat :=
  match k.again v (k.sample n) {} with
  | .ok (some (r, _)) => (List.range k.decls.length).filter fun i =>
      decide (r i ≠ k.sample n i)
  | _ => []

def OName.sharp (k : OName) (v : Version) : Bool :=
  let all := [0, 1, 3, 4, 5, 6].flatMap (k.changed v)
  (k.lost v).all fun i => all.contains i || decide (k = .tableStyle ∧ i = 2)

theorem OName.sharp_all : (OName.all.all fun k => Version.all.all fun v =>
    !k.supported v || k.sharp v) = true := by
  decide +kernel

/-- `lost` cannot be made smaller: for every field in it there is an object without lists whose
field comes back with another value.  (The version of a table style has only one possible
value.) -/
theorem C22_lost_sharp (k : OName) (v : Version) (hs : k.supported v = true) (i : Nat)
    (hi : i ∈ k.lost v) (hne : ¬ (k = .tableStyle ∧ i = 2)) :
    ∃ a b : Rec k.decls, ∃ x, k.again v a {} = .ok (some (b, x)) ∧ b i ≠ a i := by
  have h := List.all_eq_true.mp OName.sharp_all k (OName.mem_all k)
  have h := List.all_eq_true.mp h v (by cases v <;> decide)
  rw [hs] at h
  have h := List.all_eq_true.mp (show k.sharp v = true from h) i hi
  rw [decide_eq_false hne, Bool.or_false, List.contains_eq_mem, decide_eq_true_eq,
    List.mem_flatMap] at h
  obtain ⟨n, -, h⟩ := h
  unfold OName.changed at h
  split at h
  · rename_i r x hr
    refine ⟨_, r, x, hr, ?_⟩
    simpa using (List.mem_filter.mp h).2
  · cases h

/-! ### Extended records -/

/-- What C22 becomes for an `XRecordObject`: handle, owner and extension groups are restored.  The
handling of duplicate records is not: its pair becomes the first of the data, and the extended data
become the last of them.  So the data grow whenever a drawing is loaded and saved. -/
theorem C22_xrecord (e : Entry OName.xRecordObject.decls) (x : OExtra) (v : Version)
    (hs : OName.xRecordObject.supported v = true) (hext : ExtGroup.AllPlain e.ext)
    (hd : ∀ p ∈ x.pairs, p.code ≠ 0 ∧ p.code ≠ 999) (rest : Stream) (hr : StartsZero rest) :
    ∃ pairs dup, Object.pairs v ⟨.xRecordObject, e, x⟩ = .ok pairs ∧
      ∃ r : Rec OName.xRecordObject.decls,
      r 0 = e.fields 0 ∧ r 1 = e.fields 1 ∧ r 2 = Rec.dflt OName.xRecordObject.decls 2 ∧
      Rd.withFuel readObject (toStream pairs ++ rest) =
        (.ok (some ⟨.xRecordObject, ⟨r, if .r14 ≤ v then ExtGroup.kept e.ext else [], []⟩,
          { pairs := .newI16 280 dup :: x.pairs ++ e.xdata.flatMap fun x => x.pairs v }⟩), rest) := by
  obtain ⟨pairs, hp, r, h0, h1, h2, h⟩ := OName.read_xrecord e x v hs hext hd rest hr
  exact ⟨pairs, _, hp, r, h0, h1, h2, h _⟩

example : ∃ (e : Entry OName.xRecordObject.decls) (x : OExtra),
    OName.xRecordObject.supported .r2018 = true ∧ ExtGroup.AllPlain e.ext ∧ e.xdata ≠ [] ∧
    x.pairs ≠ [] ∧ (∀ p ∈ x.pairs, p.code ≠ 0 ∧ p.code ≠ 999) ∧
    StartsZero (toStream [.newStr 0 str!"ENDSEC"]) :=
  ⟨⟨Rec.dflt _, [], [⟨str!"B", [.integer 1#16]⟩]⟩, { pairs := [.newStr 1 str!"a"] }, rfl,
    by simp [ExtGroup.AllPlain], by simp, by simp, by simp [CodePair.newStr], ⟨_, _, rfl, rfl⟩⟩

/-! ### Lists that do not survive -/

/-- The elements of an `MLineStyle` are lost. -/
theorem C22_lists_mline_style (o : Object) (hk : o.kind = .mLineStyle) (hreg : o.Regular)
    (v : Version) (hs : o.kind.supported v = true) (hext : ExtGroup.AllPlain o.entry.ext)
    (rest : Stream) (hr : StartsZero rest) :
    ∃ pairs o', o.pairs v = .ok pairs ∧ o'.extra.elements = [] ∧
      Rd.withFuel readObject (toStream pairs ++ rest) = (.ok (some o'), rest) := by
  obtain ⟨pairs, b, hp, -, h⟩ := C22_partial o hreg v hs hext rest hr
  refine ⟨pairs, _, hp, ?_, h⟩
  change (o.kind.listsBack o.extra).elements = _
  rw [hk]
  rfl

example : ∃ o : Object, o.kind = .mLineStyle ∧ o.Regular ∧ o.kind.supported .r2018 = true ∧
    o.extra.elements ≠ [] :=
  ⟨⟨.mLineStyle, Entry.dflt _, { elements := [⟨.zero, 1#16, str!"BYLAYER"⟩] }⟩, rfl, trivial, rfl,
    by simp⟩

/-- The matrices of a `SpatialFilter` come back transposed and without their last row, so even the
identity comes back changed. -/
theorem C22_lists_spatial_filter (o : Object) (hk : o.kind = .spatialFilter) (hreg : o.Regular)
    (v : Version) (hs : o.kind.supported v = true) (hext : ExtGroup.AllPlain o.entry.ext)
    (rest : Stream) (hr : StartsZero rest) :
    ∃ pairs o', o.pairs v = .ok pairs ∧ o'.extra.transform = o.extra.transform.filtered ∧
      o'.extra.inverse = o.extra.inverse.filtered ∧
      Rd.withFuel readObject (toStream pairs ++ rest) = (.ok (some o'), rest) := by
  obtain ⟨pairs, b, hp, -, h⟩ := C22_partial o hreg v hs hext rest hr
  refine ⟨pairs, _, hp, ?_, ?_, h⟩
  · change (o.kind.listsBack o.extra).transform = _
    rw [hk]
    rfl
  · change (o.kind.listsBack o.extra).inverse = _
    rw [hk]
    rfl

example : Matrix.identity.filtered ≠ Matrix.identity := by decide

/-- The mesh of a `GeoData` comes back flat. -/
theorem C22_lists_geo_data (o : Object) (hk : o.kind = .geoData) (hreg : o.Regular)
    (v : Version) (hs : o.kind.supported v = true) (hext : ExtGroup.AllPlain o.entry.ext)
    (rest : Stream) (hr : StartsZero rest) :
    ∃ pairs o', o.pairs v = .ok pairs ∧
      o'.extra.mesh = (o.extra.mesh.map fun (s, d) => ({ s with z := .zero }, { d with z := .zero })) ∧
      Rd.withFuel readObject (toStream pairs ++ rest) = (.ok (some o'), rest) := by
  obtain ⟨pairs, b, hp, -, h⟩ := C22_partial o hreg v hs hext rest hr
  refine ⟨pairs, _, hp, ?_, h⟩
  change (o.kind.listsBack o.extra).mesh = _
  rw [hk]
  rfl

/-! ### Objects that are not regular -/

/-- A dictionary that is a hard owner comes back as one that is not. -/
theorem C22_lost_hard_owner :
    (OName.dictionary.again .r2018 (Rec.set (Rec.dflt OName.dictionary.decls) 2 (true : Bool)) {}).map
      (fun o => o.map fun (r, _) => (show Bool from r 2)) = .ok (some false) := by
  decide +kernel

/-- A light list with two lights comes back without them; the second of them has become its
handle, and their number its version. -/
theorem C22_irregular_light_list :
    (OName.lightList.again .r2018
      (Rec.set (Rec.dflt OName.lightList.decls) 3 ([7#64, 8#64] : List Handle)) {}).map
      (fun o => o.map fun (r, _) =>
        ((show Handle from r 0), (show I32 from r 2), (show List Handle from r 3))) =
      .ok (some (8#64, 2#32, [])) := by
  decide +kernel

/-- Of two dates of a sun study one comes back. -/
theorem C22_irregular_sun_dates :
    (OName.sunStudy.again .r2018 (Rec.dflt OName.sunStudy.decls)
      { dates := [(0 : Int), (864000000 : Int)] }).map
      (fun o => o.map fun (_, x) => x.dates.length) = .ok (some 1) := by
  decide +kernel

/-- The hours of a sun study are written as short integers under a code that is for booleans, so
the file cannot be read back. -/
theorem C22_irregular_sun_hours :
    ∃ ps, Object.pairs .r2018 ⟨.sunStudy, Entry.dflt _, { hours := [5#32] }⟩ = .ok ps ∧
      ∃ p ∈ ps, ¬ p.WellTyped := by
  refine ⟨_, rfl, .newI16 290 5#16, ?_, ?_⟩
  · decide +kernel
  · decide +kernel

/-- A data table comes back with its columns moved by one: the last one is lost. -/
theorem C22_irregular_data_table :
    (OName.dataTable.again .r2018 (Rec.dflt OName.dataTable.decls) { table := {
        columnCount := 2
        rowCount := 1
        columnNames := [str!"c", str!"d"]
        values := [[some (.integer 5#32), some (.integer 6#32)]] } }).map
      (fun o => o.map fun (_, x) => x.table.values) =
      .ok (some [[none, some (.integer 5#32)]]) := by
  decide +kernel

/-- Saving a data table with a column and no rows panics. -/
theorem C22_irregular_data_table_save (v : Version) (hs : OName.dataTable.supported v = true) :
    Object.pairs v ⟨.dataTable, Entry.dflt _, { table := {
      columnCount := 1
      columnNames := [str!"c"] } }⟩ = .error .panic := by
  rw [Object.pairs, if_pos hs]
  rfl

example : OName.dataTable.supported .r2018 = true := rfl

/-- Loading a data table that gives its number of rows twice panics. -/
theorem C22_irregular_data_table_load (rest : Stream) :
    (Rd.withFuel readObject (toStream [.newStr 0 str!"DATATABLE", .newI32 90 1#32, .newI32 91 0#32,
      .newI32 91 1#32, .newI16 71 1#16] ++ rest)).1 = .error .panic := by
  rfl

/-- The cell style of a table style swallows the beginning of the object after it: of three
objects two come back. -/
theorem C22_irregular_table_style :
    (([⟨.tableStyle, Entry.dflt _, { cells := [Rec.dflt cellDecls] }⟩,
      ⟨.placeHolder, Entry.dflt _, {}⟩, ⟨.placeHolder, Entry.dflt _, {}⟩] : List Object).mapM
        (Object.pairs .r2018)).bind (fun ps =>
      ((readObjects (toStream (ps.flatten ++ [.newStr 0 str!"ENDSEC"]))).1.map
        fun os => os.map (·.kind))) = Except.ok [.tableStyle, .placeHolder] := by
  decide +kernel

/-- Two sections of a `SectionSettings` come back as one. -/
theorem C22_irregular_sections :
    (OName.sectionSettings.again .r2018 (Rec.dflt OName.sectionSettings.decls)
      { sections := [{ sectionType := 1#32 }, { sectionType := 2#32 }] }).map
      (fun o => o.map fun (_, x) => x.sections.map (·.sectionType)) = .ok (some [2#32]) := by
  decide +kernel

/-! ### Section settings with extended data -/

/-- Another failure of C45: at a pair it does not know, such as the start of extended data, the
reader of sections adds one empty section after the other.  No bound on the number of rounds is
enough. -/
theorem C45_sections_diverge (fuel : Nat) (s : Str) (rest : Stream) :
    SectionType.readAll fuel (toStream [.newStr 1001 s] ++ rest) =
      (.error .outOfFuel, toStream [.newStr 1001 s] ++ rest) := by
  induction fuel with
  | zero => rfl
  | succ fuel ih =>
    have h : SectionType.read (toStream [.newStr 1001 s] ++ rest) =
      (.ok (some {}), toStream [.newStr 1001 s] ++ rest) := rfl
    rw [SectionType.readAll, Rd.bind_ok h]
    exact Rd.bind_err ih

/-- Such a file is what is saved for a `SectionSettings` with a section and extended data. -/
theorem C45_sections_written :
    (Object.pairs .r2018 ⟨.sectionSettings, ⟨Rec.dflt _, [], [⟨str!"A", []⟩]⟩,
      { sections := [{}] }⟩).bind (fun ps =>
        (Rd.withFuel readObject (toStream (ps ++ [.newStr 0 str!"ENDSEC"]))).1.map
          fun o => o.map (·.kind)) = .error .outOfFuel := by
  decide +kernel

end Dxf
