import Verif.Spec.Tables
import Verif.Lemmas.Entry

/-! Reading the pairs written for a table. -/

namespace Dxf

/-- The record read back from what the two groups of statements emit. -/
def TableKind.Reads (K : TableKind) (v : Version) (wh : Bool) (a b : TableItem K) : Prop :=
  foldPairs K.arms (Rec.dflt K.decls) (emitAll (K.head wh ++ K.cmds) v a.fields) = .ok b.fields ∧
  b.ext = (if .r14 ≤ v then ExtGroup.kept a.ext else []) ∧
  b.xdata = (if .r2000 ≤ v then a.xdata else [])

/-- No statement of the table emits a code that the item loop treats specially. -/
def TableKind.plainCodes (K : TableKind) (wh : Bool) : Bool :=
  (K.head wh ++ K.cmds).all fun g => g.cmd.codes.all plainCode

theorem emitAll_plain {ds : List Decl} (cmds : List (GCmd ds)) (v : Version) (r : Rec ds)
    (h : (cmds.all fun g => g.cmd.codes.all plainCode) = true) :
    ∀ p ∈ emitAll cmds v r, plainCode p.code = true := by
  intro p hp
  obtain ⟨g, hg, _, hp⟩ := mem_emitAll hp
  exact List.all_eq_true.mp (List.all_eq_true.mp h g hg) _ (g.cmd.mem_codes r p hp)

theorem emitAll_append {ds : List Decl} (a b : List (GCmd ds)) (v : Version) (r : Rec ds) :
    emitAll (a ++ b) v r = emitAll a v r ++ emitAll b v r := by
  simp [emitAll]

/-- What follows an entry: a pair with code 0. -/
def StartsZero (rest : Stream) : Prop := ∃ q s, rest = some (.ok q) :: s ∧ q.code = 0

theorem StartsZero.stops {rest : Stream} (h : StartsZero rest) : XData.Stops rest := by
  obtain ⟨q, s, rfl, hq⟩ := h
  exact .inr ⟨q, s, rfl, .inr (by omega), by omega⟩

theorem TableKind.read_item (K : TableKind) (v : Version) (wh : Bool) (a : TableItem K)
    (hpl : K.plainCodes wh = true)
    (hacc : ∀ p ∈ emitAll (K.head wh ++ K.cmds) v a.fields, Accepts K.arms p)
    (hext : ExtGroup.AllPlain a.ext) (rest : Stream) (hr : StartsZero rest) :
    ∃ b, K.Reads v wh a b ∧ ∃ tail, K.itemPairs v wh a = .newStr 0 K.typeString :: tail ∧
      ∀ fuel, tail.length + rest.length < fuel →
        itemLoop false (Entry.apply K.arms) fuel (Entry.dflt K.decls) (toStream tail ++ rest) =
          (.ok b, rest) := by
  obtain ⟨r, hfold⟩ := foldPairs_ok K.arms _ hacc (Rec.dflt K.decls)
  refine ⟨⟨r, if .r14 ≤ v then ExtGroup.kept a.ext else [], if .r2000 ≤ v then a.xdata else []⟩,
    ⟨hfold, rfl, rfl⟩, emitAll (K.head wh) v a.fields ++
      ((if .r14 ≤ v then a.ext.flatMap ExtGroup.pairs else []) ++
      (emitAll K.cmds v a.fields ++ a.xdata.flatMap fun x => x.pairs v)), ?_, ?_⟩
  · simp [TableKind.itemPairs]
  · intro fuel hf
    have hplain := emitAll_plain (K.head wh ++ K.cmds) v a.fields hpl
    rw [emitAll_append, foldPairs_append] at hfold
    cases h1 : foldPairs K.arms (Rec.dflt K.decls) (emitAll (K.head wh) v a.fields) with
    | error e => rw [h1] at hfold; cases hfold
    | ok r1 =>
      rw [h1] at hfold
      simp only at hfold
      have hp1 : ∀ p ∈ emitAll (K.head wh) v a.fields, plainCode p.code = true := fun p hp =>
        hplain p (by rw [emitAll_append]; exact List.mem_append_left _ hp)
      have hp2 : ∀ p ∈ emitAll K.cmds v a.fields, plainCode p.code = true := fun p hp =>
        hplain p (by rw [emitAll_append]; exact List.mem_append_right _ hp)
      have s1 := fun rest => runs_fold (eof := false) K.arms _ hp1 (Entry.dflt K.decls) h1 rest
      have s2 : ∀ rest, Runs false (Entry.apply K.arms) { Entry.dflt K.decls with fields := r1 }
          (if .r14 ≤ v then a.ext.flatMap ExtGroup.pairs else [])
          ⟨r1, if .r14 ≤ v then ExtGroup.kept a.ext else [], []⟩ rest := by
        intro rest
        by_cases hv : .r14 ≤ v
        · simp only [if_pos hv]
          have := runs_groups (eof := false) K.arms a.ext hext { Entry.dflt K.decls with fields := r1 } rest
          simpa [Entry.dflt] using this
        · simp only [if_neg hv]
          exact Runs.nil _ _
      have s3 := fun rest => runs_fold (eof := false) K.arms _ hp2
        ⟨r1, if .r14 ≤ v then ExtGroup.kept a.ext else [], []⟩ hfold rest
      have s4 : Runs false (Entry.apply K.arms)
          ⟨r, if .r14 ≤ v then ExtGroup.kept a.ext else [], []⟩
          (a.xdata.flatMap fun x => x.pairs v)
          ⟨r, if .r14 ≤ v then ExtGroup.kept a.ext else [],
            if .r2000 ≤ v then a.xdata else []⟩ rest := by
        by_cases hv : .r2000 ≤ v
        · have := runs_xdata (eof := false) K.arms a.xdata v hv
            ⟨r, if .r14 ≤ v then ExtGroup.kept a.ext else [], []⟩ rest hr.stops
          simpa [if_pos hv] using this
        · rw [xdata_old _ _ hv, if_neg hv]
          exact Runs.nil _ _
      have := Runs.trans (s1 _) (Runs.trans (s2 _) (Runs.trans (s3 _) s4))
      obtain ⟨q, s, rfl, hq⟩ := hr
      exact this.done hq fuel (by simpa [Nat.add_assoc] using hf)

theorem TableKind.read_items (K : TableKind) (v : Version) (wh : Bool)
    (hpl : K.plainCodes wh = true) (items : List (TableItem K))
    (hacc : ∀ a ∈ items, ∀ p ∈ emitAll (K.head wh ++ K.cmds) v a.fields, Accepts K.arms p)
    (hext : ∀ a ∈ items, ExtGroup.AllPlain a.ext) (q : CodePair) (s : Stream) (hq : q.code = 0)
    {t : Str} (ht : q.assertString = .ok t) (hne : t ≠ K.typeString) (fuel : Nat)
    (hf : (items.flatMap (K.itemPairs v wh)).length + s.length + 1 < fuel) :
    ∃ items', List.Forall₂ (K.Reads v wh) items items' ∧
      K.read fuel (toStream (items.flatMap (K.itemPairs v wh)) ++ some (.ok q) :: s) =
        (.ok items', some (.ok q) :: s) := by
  induction items generalizing fuel with
  | nil =>
    obtain ⟨f, rfl⟩ : ∃ f, fuel = f + 1 := ⟨fuel - 1, by omega⟩
    refine ⟨[], .nil, ?_⟩
    simp [TableKind.read, Rd.run_bind, Rd.next_cons (show q.code ≠ 999 by omega), hq, ht, hne]
  | cons a as ih =>
    have hzero : StartsZero (toStream (as.flatMap (K.itemPairs v wh)) ++ some (.ok q) :: s) := by
      cases as with
      | nil => exact ⟨q, s, rfl, hq⟩
      | cons a' as' =>
        exact ⟨.newStr 0 K.typeString, _, by simp [TableKind.itemPairs]; rfl, rfl⟩
    obtain ⟨b, hb, tail, htail, hloop⟩ := K.read_item v wh a hpl (hacc a List.mem_cons_self)
      (hext a List.mem_cons_self) _ hzero
    obtain ⟨f, rfl⟩ : ∃ f, fuel = f + 1 := ⟨fuel - 1, by omega⟩
    obtain ⟨bs, hbs, hread⟩ := ih (fun x hx => hacc x (List.mem_cons_of_mem _ hx))
      (fun x hx => hext x (List.mem_cons_of_mem _ hx)) f
      (by rw [List.flatMap_cons, htail] at hf; simp at hf ⊢; omega)
    refine ⟨b :: bs, .cons hb hbs, ?_⟩
    rw [List.flatMap_cons, htail]
    simp only [List.cons_append, toStream_cons, toStream_append, List.append_assoc]
    have hl := hloop ((toStream tail ++ (toStream (as.flatMap (K.itemPairs v wh)) ++
      some (.ok q) :: s)).length + 1) (by simp)
    simp only [TableKind.read]
    rw [Rd.bind_ok (Rd.next_cons (by simp [CodePair.newStr]) _)]
    rw [if_pos (by rfl), Rd.bind_ok (m := Rd.lift (CodePair.newStr 0 K.typeString).assertString)
        (a := K.typeString) rfl, if_neg (by simp),
      Rd.bind_ok (by rw [Rd.run_withFuel]; exact hl), Rd.bind_ok hread]
    rfl

theorem TableKind.pairs_cons (K : TableKind) (v : Version) (wh : Bool) (items : List (TableItem K))
    (hne : items ≠ []) : K.pairs v wh items =
      [.newStr 0 str!"TABLE", .newStr 2 K.typeString] ++ ([.newStr 100 str!"AcDbSymbolTable",
        .newI16 70 0#16] ++ items.flatMap (K.itemPairs v wh) ++ [.newStr 0 str!"ENDTAB"]) := by
  unfold TableKind.pairs
  rw [if_neg (by simpa using hne)]
  simp

/-- Reading a whole table, after its `0/TABLE` and `2/type` pairs. -/
theorem TableKind.read_table (K : TableKind) (v : Version) (wh : Bool)
    (hpl : K.plainCodes wh = true) (hK : K.typeString ≠ str!"ENDTAB")
    (items : List (TableItem K))
    (hacc : ∀ a ∈ items, ∀ p ∈ emitAll (K.head wh ++ K.cmds) v a.fields, Accepts K.arms p)
    (hext : ∀ a ∈ items, ExtGroup.AllPlain a.ext) (rest : Stream) :
    ∃ items', List.Forall₂ (K.Reads v wh) items items' ∧
      Rd.withFuel K.read (toStream ([.newStr 100 str!"AcDbSymbolTable",
        .newI16 70 0#16] ++ items.flatMap (K.itemPairs v wh) ++ [.newStr 0 str!"ENDTAB"]) ++ rest) =
        (.ok items', some (.ok (.newStr 0 str!"ENDTAB")) :: rest) := by
  obtain ⟨items', h1, h2⟩ := K.read_items v wh hpl items hacc hext (.newStr 0 str!"ENDTAB") rest rfl
    (t := str!"ENDTAB") rfl (Ne.symm hK)
    ((items.flatMap (K.itemPairs v wh)).length + rest.length + 2) (by omega)
  refine ⟨items', h1, ?_⟩
  rw [Rd.run_withFuel]
  simp only [List.cons_append, List.nil_append, toStream_cons, toStream_append, List.append_assoc,
    List.length_cons, List.length_append, toStream_length, toStream_nil]
  rw [show (items.flatMap (K.itemPairs v wh)).length + (rest.length + 1) + 1 + 1 + 1 =
    (items.flatMap (K.itemPairs v wh)).length + rest.length + 2 + 1 + 1 by omega]
  rw [TableKind.read, Rd.bind_ok (Rd.next_cons (by decide) _), if_neg (by decide),
    TableKind.read, Rd.bind_ok (Rd.next_cons (by decide) _), if_neg (by decide), h2]

/-- Checks on a specification that make every field outside `skip` round trip. -/
def TableKind.checks (K : TableKind) (wh : Bool) (skip : List Nat) : Bool :=
  K.plainCodes wh && decide (K.typeString ≠ str!"ENDTAB") &&
  (List.range K.decls.length).all fun i =>
    skip.contains i || (fieldOK K.arms (K.all wh) i && listOK (K.all wh) i)

theorem checks_spec {K : TableKind} {wh : Bool} {skip : List Nat} (h : K.checks wh skip = true) :
    K.plainCodes wh = true ∧ K.typeString ≠ str!"ENDTAB" ∧
    ∀ i, i < K.decls.length → i ∉ skip →
      fieldOK K.arms (K.all wh) i = true ∧ listOK (K.all wh) i = true := by
  unfold TableKind.checks at h
  simp only [Bool.and_eq_true, decide_eq_true_eq, List.all_eq_true, List.mem_range,
    Bool.or_eq_true, List.contains_eq_mem] at h
  refine ⟨h.1.1, h.1.2, fun i hi hs => ?_⟩
  exact (h.2 i hi).resolve_left hs

theorem den_beyond {ds : List Decl} {i : Nat} (h : ds.length ≤ i) (x y : (tyAt ds i).den) :
    x = y := by
  have hu : tyAt ds i = .unit := by
    unfold tyAt declAt
    rw [List.getElem?_eq_none h]
  generalize tyAt ds i = t at hu x y
  subst hu
  rfl

theorem reads_restored {K : TableKind} {wh : Bool} {skip : List Nat}
    (hc : K.checks wh skip = true) (hf : CustomFrame K.arms) {v : Version} {a b : TableItem K}
    (h : K.Reads v wh a b) : Restored K v wh skip a b := by
  obtain ⟨_, _, hfields⟩ := checks_spec hc
  refine ⟨fun i hi hrep => ?_, h.2.1, h.2.2⟩
  by_cases hl : i < K.decls.length
  · exact field_roundtrip hf i (K.all wh) v a.fields (hfields i hl hi).1 (hfields i hl hi).2 hrep h.1
  · exact den_beyond (by omega) _ _

theorem customFrame_of_on {ds : List Decl} (arms : List (Arm ds))
    (h : (arms.all fun a => match a.act with | .on _ _ => true | .custom _ _ => false) = true) :
    CustomFrame arms := by
  intro a ha ts f hact
  have := List.all_eq_true.mp h a ha
  rw [hact] at this
  simp at this

/-- The eight kinds, without `insertion_units` of block records. -/
theorem others_checks : ∀ K ∈ Tables.others, ∀ wh,
    K.checks wh (if K.typeString = str!"BLOCK_RECORD" then [4] else []) = true := by
  simp only [Tables.others, List.mem_cons, List.not_mem_nil, or_false]
  rintro K (rfl | rfl | rfl | rfl | rfl | rfl | rfl | rfl) (_ | _) <;> decide +kernel

theorem others_safe : ∀ K ∈ Tables.others, ∀ wh,
    ((K.all wh).all fun g => g.cmd.safe K.arms) = true := by
  simp only [Tables.others, List.mem_cons, List.not_mem_nil, or_false]
  rintro K (rfl | rfl | rfl | rfl | rfl | rfl | rfl | rfl) (_ | _) <;> decide +kernel

theorem others_frame : ∀ K ∈ Tables.others, CustomFrame K.arms := by
  intro K hK
  apply customFrame_of_on
  revert K
  simp only [Tables.others, List.mem_cons, List.not_mem_nil, or_false]
  rintro K (rfl | rfl | rfl | rfl | rfl | rfl | rfl | rfl) <;> decide +kernel

/-- `insertion_units` shares its code 70 with the flags, which are written first and always as
zero; the flag pair leaves the default value in place. -/
theorem blockRecord_units {wh : Bool} {v : Version} {a b : TableItem Tables.blockRecord}
    (h : Tables.blockRecord.Reads v wh a b)
    (hrep : Representable (Tables.blockRecord.all wh) v a.fields 4) :
    b.fields 4 = if Written (Tables.blockRecord.all wh) v a.fields 4 then a.fields 4
      else Rec.dflt Tables.blockRecord.decls 4 := by
  have hf : CustomFrame Tables.blockRecord.arms :=
    others_frame _ (by simp [Tables.others])
  obtain ⟨h, _, _⟩ := h
  rw [show Tables.blockRecord.head wh ++ Tables.blockRecord.cmds =
    ((Tables.blockRecord.head wh ++ Tables.blockRecord.cmds.take 3) ++
      [{ cmd := .const (.newI16 70 0#16) }]) ++ Tables.blockRecord.cmds.drop 4 from rfl,
    emitAll_append, emitAll_append, foldPairs_append, foldPairs_append] at h
  cases h1 : foldPairs Tables.blockRecord.arms (Rec.dflt Tables.blockRecord.decls)
      (emitAll (Tables.blockRecord.head wh ++ Tables.blockRecord.cmds.take 3) v a.fields) with
  | error e => rw [h1] at h; cases h
  | ok r1 =>
    rw [h1] at h
    simp only at h
    cases h2 : foldPairs Tables.blockRecord.arms r1
        (emitAll [{ cmd := .const (.newI16 70 0#16) }] v a.fields) with
    | error e => rw [h2] at h; cases h
    | ok r2 =>
      rw [h2] at h
      simp only at h
      have hd : r2 4 = Rec.dflt Tables.blockRecord.decls 4 := by
        have he : emitAll (ds := Tables.blockRecord.decls)
            [{ cmd := .const (.newI16 70 0#16) }] v a.fields = [.newI16 70 0#16] := by
          cases v <;> rfl
        rw [he] at h2
        have : foldPairs Tables.blockRecord.arms r1 [.newI16 70 0#16] =
          .ok (Rec.set (ds := Tables.blockRecordDecls) r1 4 (⟨0, by decide⟩ : Fin (List.length E.units))) := rfl
        rw [this] at h2
        have h2 := Except.ok.inj h2
        rw [← h2]
        rfl
      have hw : Written (Tables.blockRecord.all wh) v a.fields 4 ↔
          Written (Tables.blockRecord.cmds.drop 4) v a.fields 4 := by
        constructor
        · rintro ⟨g, hg, h1, h2⟩
          rw [TableKind.all, show Tables.blockRecord.head wh ++ Tables.blockRecord.cmds =
            (Tables.blockRecord.head wh ++ Tables.blockRecord.cmds.take 4) ++
              Tables.blockRecord.cmds.drop 4 from rfl] at hg
          rcases List.mem_append.mp hg with hg | hg
          · have : ((Tables.blockRecord.head wh ++ Tables.blockRecord.cmds.take 4).all
                fun g => !g.writes 4) = true := by cases wh <;> decide +kernel
            have := List.all_eq_true.mp this g hg
            rw [h1] at this
            cases this
          · exact ⟨g, hg, h1, h2⟩
        · rintro ⟨g, hg, h⟩
          exact ⟨g, List.mem_append_right _ (List.mem_of_mem_drop hg), h⟩
      have hrep' : Representable (Tables.blockRecord.cmds.drop 4) v a.fields 4 :=
        fun g hg => hrep g (List.mem_append_right _ (List.mem_of_mem_drop hg))
      have hafter := fold_afterAll hf 4 (Tables.blockRecord.cmds.drop 4) v a.fields
        (by decide +kernel) hrep' h
      rw [hafter, hd]
      by_cases hwr : Written (Tables.blockRecord.all wh) v a.fields 4
      · rw [if_pos hwr]
        exact afterAll_written 4 _ v a.fields hrep' rfl _ (.inl rfl) (.inl (hw.mp hwr))
      · rw [if_neg hwr]
        exact afterAll_not_written 4 _ v a.fields _ fun h => hwr (hw.mpr h)

/-! ### Layers -/

theorem layer_frame : CustomFrame Tables.layer.arms := by
  intro a ha ts f hact r p r' h j hj
  have hall : (Tables.layer.arms.all fun a => match a.act with
      | .on _ _ => true
      | .custom _ _ => decide (a.code = 62)) = true := by decide +kernel
  have h62 := List.all_eq_true.mp hall a ha
  rw [hact] at h62
  simp only [decide_eq_true_eq] at h62
  have hsplit : Tables.layer.arms = Tables.layer.arms.take 3 ++
      [⟨62, Tables.readLayerColor⟩] ++ Tables.layer.arms.drop 4 := rfl
  have hno : ((Tables.layer.arms.take 3 ++ Tables.layer.arms.drop 4).all
      fun a => decide (a.code ≠ 62)) = true := by decide +kernel
  have ha' : a = ⟨62, Tables.readLayerColor⟩ := by
    rw [hsplit] at ha
    have key : ∀ x ∈ Tables.layer.arms.take 3 ++ Tables.layer.arms.drop 4, x ≠ a := by
      intro x hx hxa
      have := List.all_eq_true.mp hno x hx
      rw [hxa] at this
      simp [h62] at this
    rcases List.mem_append.mp ha with ha | ha
    · rcases List.mem_append.mp ha with ha | ha
      · exact absurd rfl (key a (List.mem_append_left _ ha))
      · exact List.mem_singleton.mp ha
    · exact absurd rfl (key a (List.mem_append_right _ ha))
  rw [ha'] at hact
  simp only [Tables.readLayerColor] at hact
  obtain ⟨rfl, rfl⟩ := Act.custom.inj hact
  simp only at h
  cases h1 : p.assertI16 with
  | error e => rw [h1] at h; cases h
  | ok v =>
    rw [h1] at h
    simp only at h
    cases h2 : readColor v with
    | none => rw [h2] at h; cases h
    | some oc =>
      rw [h2] at h
      have h := Except.ok.inj h
      rw [← h]
      simp only [List.mem_cons, List.not_mem_nil, or_false, not_or] at hj
      exact (Rec.set_ne (ds := Tables.layerDecls) _ _ hj.1).trans
        (Rec.set_ne (ds := Tables.layerDecls) r _ hj.2)

theorem layer_checks (wh : Bool) : Tables.layer.checks wh [3, 9] = true := by
  cases wh <;> decide +kernel

/-- The pair written for the colour of a layer. -/
def layerColorPair (a : TableItem Tables.layer) : CodePair :=
  .newI16 62 (Tables.layerColorValue a.fields)

theorem layerColorValue_eq (a : TableItem Tables.layer) (h : (a.fields 3 : I16).toInt ≠ -32768) :
    writableColor ⟨a.fields 3⟩ (a.fields 9) = some (Tables.layerColorValue a.fields) := by
  unfold writableColor absI16 Tables.layerColorValue
  rw [if_neg h]
  change _ = some (bif (a.fields 9 : Bool) then _ else _)
  cases (a.fields 9 : Bool) <;> rfl

theorem layerColor_read (a : TableItem Tables.layer) (h : (a.fields 3 : I16).toInt ≠ -32768)
    (r : Rec Tables.layerDecls) : ∃ on c, readColor (Tables.layerColorValue a.fields) = some (on, c) ∧
      applyPair Tables.layer.arms r (layerColorPair a) =
        .ok ((r.set 9 (on : Bool)).set 3 (c.raw : I16)) := by
  have hne : (Tables.layerColorValue a.fields).toInt ≠ -32768 := by
    unfold Tables.layerColorValue
    have h' : ∀ raw : I16, raw.toInt ≠ -32768 → ∀ on : Bool,
        (bif on then (if raw.toInt < 0 then -raw else raw)
          else -(if raw.toInt < 0 then -raw else raw)).toInt ≠ -32768 := by
      intro raw hr on
      have h1 := BitVec.toInt_lt (x := raw)
      have h2 := BitVec.le_toInt (x := raw)
      have hneg : (-raw).toInt = -raw.toInt := by
        rw [BitVec.toInt_neg, Int.bmod_eq_of_le] <;> omega
      have hneg2 : (- -raw).toInt = raw.toInt := by simp
      cases on <;> simp only [cond_true, cond_false] <;> split <;> omega
    exact h' _ h _
  have : readColor (Tables.layerColorValue a.fields) =
      some (decide (0 ≤ (Tables.layerColorValue a.fields).toInt),
        .fromRaw (if (Tables.layerColorValue a.fields).toInt < 0 then
          -Tables.layerColorValue a.fields else Tables.layerColorValue a.fields)) := by
    unfold readColor absI16
    rw [if_neg hne]
    rfl
  refine ⟨_, _, this, ?_⟩
  have harm : applyPair Tables.layer.arms r (layerColorPair a) =
      (match readColor (Tables.layerColorValue a.fields) with
        | none => .error .panic
        | some (on, c) => .ok ((Rec.set (ds := Tables.layerDecls) r 9 (on : Bool)).set 3 (c.raw : I16))) := rfl
  rw [harm, this]

theorem layer_accepts (wh : Bool) (v : Version) (a : TableItem Tables.layer)
    (h : (a.fields 3 : I16).toInt ≠ -32768) :
    ∀ p ∈ emitAll (Tables.layer.head wh ++ Tables.layer.cmds) v a.fields,
      Accepts Tables.layer.arms p := by
  intro p hp
  obtain ⟨g, hg, _, hp⟩ := mem_emitAll hp
  by_cases hs : g.cmd.safe Tables.layer.arms = true
  · exact g.cmd.safe_accepts _ hs _ p hp
  · have hsplit : Tables.layer.head wh ++ Tables.layer.cmds =
        (Tables.layer.head wh ++ Tables.layer.cmds.take 4) ++
        ({ cmd := .computed (t := .i16) 62 .i16 Tables.layerColorValue } ::
          Tables.layer.cmds.drop 5) := rfl
    have hsafe : ((Tables.layer.head wh ++ Tables.layer.cmds.take 4 ++ Tables.layer.cmds.drop 5).all
        fun g => g.cmd.safe Tables.layer.arms) = true := by cases wh <;> decide +kernel
    rw [hsplit] at hg
    have key : ∀ x ∈ Tables.layer.head wh ++ Tables.layer.cmds.take 4 ++
        Tables.layer.cmds.drop 5, x ≠ g := by
      intro x hx hxa
      exact hs (hxa ▸ List.all_eq_true.mp hsafe x hx)
    rcases List.mem_append.mp hg with hg | hg
    · exact absurd rfl (key g (List.mem_append_left _ hg))
    · rcases List.mem_cons.mp hg with rfl | hg
      · simp only [Cmd.emit, List.mem_singleton] at hp
        subst hp
        intro r
        obtain ⟨on, c, _, h2⟩ := layerColor_read a h r
        exact ⟨_, h2⟩
      · exact absurd rfl (key g (List.mem_append_right _ hg))

/-- Colour and on/off state after reading a layer back. -/
theorem layer_color {wh : Bool} {v : Version} {a b : TableItem Tables.layer}
    (h : Tables.layer.Reads v wh a b) (hc : (a.fields 3 : I16).toInt ≠ -32768) :
    ∃ w, writableColor ⟨a.fields 3⟩ (a.fields 9) = some w ∧
      readColor w = some ((b.fields 9 : Bool), ⟨b.fields 3⟩) := by
  refine ⟨_, layerColorValue_eq a hc, ?_⟩
  obtain ⟨h, _, _⟩ := h
  rw [show Tables.layer.head wh ++ Tables.layer.cmds =
        (Tables.layer.head wh ++ Tables.layer.cmds.take 4) ++
        [{ cmd := .computed (t := .i16) 62 .i16 Tables.layerColorValue }] ++
          Tables.layer.cmds.drop 5 from rfl, emitAll_append, emitAll_append, foldPairs_append,
    foldPairs_append] at h
  cases h1 : foldPairs Tables.layer.arms (Rec.dflt Tables.layer.decls)
      (emitAll (Tables.layer.head wh ++ Tables.layer.cmds.take 4) v a.fields) with
  | error e => rw [h1] at h; cases h
  | ok r1 =>
    rw [h1] at h
    simp only at h
    obtain ⟨on, c, hrc, hap⟩ := layerColor_read a hc r1
    have he : emitAll (ds := Tables.layer.decls)
        [{ cmd := .computed (t := .i16) 62 .i16 Tables.layerColorValue }] v a.fields =
        [layerColorPair a] := by cases v <;> rfl
    rw [he] at h
    simp only [foldPairs] at h
    rw [hap] at h
    simp only at h
    have hno : ∀ i ∈ [3, 9], ∀ p ∈ emitAll (Tables.layer.cmds.drop 5) v a.fields,
        hits Tables.layer.arms p.code i = false := by
      intro i hi p hp
      obtain ⟨g, hg, _, hp⟩ := mem_emitAll hp
      have hcl : ([3, 9].all fun i => (Tables.layer.cmds.drop 5).all fun g =>
          g.cmd.codes.all fun c => !hits Tables.layer.arms c i) = true := by decide +kernel
      have := List.all_eq_true.mp (List.all_eq_true.mp (List.all_eq_true.mp hcl i hi) g hg) _
        (g.cmd.mem_codes _ p hp)
      simpa using this
    have e3 := foldPairs_frame layer_frame _ (hno 3 (by simp)) h
    have e9 := foldPairs_frame layer_frame _ (hno 9 (by simp)) h
    rw [hrc, e3, e9]
    rfl

end Dxf
