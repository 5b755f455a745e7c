import Verif.Model.LayerLook
import Verif.Lemmas.Placed
import Verif.Props.Small

/-! Entries of tables, written and read (C79). -/

namespace Dxf

theorem withCode_item {K : TableKind} (v : Version) (wh : Bool) {e : TableItem K} (he : e.ext = [])
    {c : Int} (h0 : c ≠ 0) (h1 : c < 1000) :
    withCode c (K.itemPairs v wh e) =
      withCode c (emitAll ((K.head wh ++ K.cmds).filter (GCmd.mentions c)) v e.fields) := by
  have hx : withCode c (e.xdata.flatMap fun x => x.pairs v) = [] :=
    withCode_none fun p hp => by
      have := OName.xdata_codes e.xdata v p hp
      omega
  have h2 : withCode c [CodePair.newStr 0 K.typeString] = [] :=
    withCode_none fun p hp => by
      rw [List.mem_singleton.mp hp]
      exact fun h => h0 h.symm
  unfold TableKind.itemPairs
  rw [he, ← withCode_emitAll, emitAll_append, withCode_append, hx, ← List.singleton_append]
  simp only [withCode_append, h2, List.flatMap_nil, ite_self, List.append_nil, List.nil_append]

/-- What the loop over the pairs of a table entry does. -/
theorem entry_fold {ds : List Decl} {arms : List (Arm ds)} {eof : Bool} {ps : List CodePair}
    (hc : ∀ p ∈ ps, plainCode p.code = true) {q : CodePair} (hq : q.code = 0) {s t : Stream} {fuel : Nat}
    {st st' : Entry ds}
    (h : itemLoop eof (Entry.apply arms) fuel st (toStream ps ++ some (.ok q) :: s) = (.ok st', t)) :
    foldPairs arms st.fields ps = .ok st'.fields := by
  induction ps generalizing st fuel with
  | nil =>
    cases fuel with
    | zero => cases h
    | succ f =>
      rw [itemLoop, toStream_nil, List.nil_append, Rd.bind_ok (Rd.next?_cons (by omega) _)] at h
      change (if q.code = 0 then (Rd.putBack q >>= fun _ => pure st)
        else (Entry.apply arms q st >>= fun st' => itemLoop eof (Entry.apply arms) f st')) s = _ at h
      rw [if_pos hq] at h
      cases h
      rfl
  | cons p ps ih =>
    cases fuel with
    | zero => cases h
    | succ f =>
      have hp := hc p List.mem_cons_self
      simp only [plainCode, ne_eq, Bool.and_eq_true, decide_not, Bool.not_eq_true',
        decide_eq_false_iff_not] at hp
      rw [itemLoop, toStream_cons, List.cons_append, Rd.bind_ok (Rd.next?_cons hp.2 _)] at h
      change (if p.code = 0 then (Rd.putBack p >>= fun _ => pure st)
        else (Entry.apply arms p st >>= fun st' => itemLoop eof (Entry.apply arms) f st')) _ = _ at h
      rw [if_neg hp.1.1.1] at h
      rw [foldPairs]
      have hs : ∀ s, Entry.apply arms p st s =
          ((applyPair arms st.fields p).map fun r => { st with fields := r }, s) := by
        intro s
        unfold Entry.apply
        rw [if_neg hp.1.1.2, if_neg hp.1.2]
        cases applyPair arms st.fields p <;> rfl
      change Rd.bind _ _ _ = _ at h
      unfold Rd.bind at h
      rw [hs] at h
      cases h1 : applyPair arms st.fields p with
      | error e =>
        rw [h1] at h
        cases h
      | ok r =>
        rw [h1] at h
        exact ih (fun q hq => hc q (List.mem_cons_of_mem _ hq)) h

/-- What is read for a table whose first entry has plain codes only. -/
theorem table_fold {K : TableKind} {op q : CodePair} (hop : op.code = 0)
    (hv : op.value = .str K.typeString) {ps : List CodePair} (hc : ∀ p ∈ ps, plainCode p.code = true)
    (hq : q.code = 0) {s t : Stream} {fuel : Nat} {xs : List (TableItem K)}
    (h : K.read fuel (some (.ok op) :: (toStream ps ++ some (.ok q) :: s)) = (.ok xs, t)) :
    ∃ x rest, xs = x :: rest ∧ foldPairs K.arms (Rec.dflt K.decls) ps = .ok x.fields := by
  cases fuel with
  | zero => cases h
  | succ fuel =>
  rw [TableKind.read] at h
  have h := (Rd.bind_ok (Rd.next_cons (by omega) _)).symm.trans h
  rw [if_pos hop] at h
  have h := (Rd.bind_ok (m := Rd.lift op.assertString) (a := K.typeString)
    (s := toStream ps ++ some (.ok q) :: s) (s' := toStream ps ++ some (.ok q) :: s)
    (by unfold CodePair.assertString; rw [hv]; rfl)).symm.trans h
  rw [if_neg (by simp)] at h
  change Rd.bind _ _ _ = _ at h
  unfold Rd.bind Rd.withFuel at h
  beta_reduce at h
  cases hl : itemLoop false (Entry.apply K.arms) ((toStream ps ++ some (.ok q) :: s).length + 1)
      (Entry.dflt K.decls) (toStream ps ++ some (.ok q) :: s) with
  | mk st t' =>
    rw [hl] at h
    cases st with
    | error e => cases h
    | ok st =>
      change Rd.bind _ _ _ = _ at h
      unfold Rd.bind at h
      cases hr : TableKind.read K fuel t' with
      | mk rs t'' =>
        rw [hr] at h
        cases rs with
        | error e => cases h
        | ok rs =>
          cases h
          exact ⟨_, _, rfl, entry_fold hc hq hl⟩

/-- Which fields an arm of the reader of layers leaves as they are. -/
def Act.leaves {ds : List Decl} (i : Nat) : Act ds → Bool
  | .on j _ => decide (j ≠ i)
  | .custom ts _ => decide (i ∉ ts)

theorem layerColor_apply {r r' : Rec Tables.layerDecls} {p : CodePair}
    (h : Tables.readLayerColor.apply r p = .ok r') : ∃ n on c, p.assertI16 = .ok n ∧
      readColor n = some (on, c) ∧ r' = (r.set 9 (on : Bool)).set 3 (c.raw : I16) := by
  change (match p.assertI16 with
    | .error e => .error e
    | .ok v =>
      match readColor v with
      | none => .error .panic
      | some (on, c) => .ok ((r.set 9 (on : Bool)).set 3 (c.raw : I16))) = Except.ok r' at h
  cases h1 : p.assertI16 with
  | error e => rw [h1] at h; cases h
  | ok n =>
    rw [h1] at h
    dsimp only at h
    cases h2 : readColor n with
    | none => rw [h2] at h; cases h
    | some oc =>
      obtain ⟨on, c⟩ := oc
      rw [h2] at h
      cases h
      exact ⟨n, on, c, rfl, h2, rfl⟩

theorem layer_other {i : Nat} {c : Int}
    (hi : (Tables.layerArms.all fun a => decide (a.code = c) || a.act.leaves i) = true)
    {r r' : Rec Tables.layerDecls} {p : CodePair} (hp : p.code ≠ c)
    (h : applyPair Tables.layerArms r p = .ok r') : r' i = r i := by
  unfold applyPair at h
  cases ha : findArm Tables.layerArms p.code with
  | none => rw [ha] at h; cases h; rfl
  | some a =>
    rw [ha] at h
    obtain ⟨hm, hc⟩ := findArm_mem ha
    have hl := List.all_eq_true.mp hi a hm
    rw [Bool.or_eq_true, decide_eq_true_eq] at hl
    have hl := hl.resolve_left (hc ▸ hp)
    change a.act.apply r p = _ at h
    simp only [Tables.layerArms, List.mem_cons, List.not_mem_nil, or_false] at hm
    rcases hm with rfl | rfl | rfl | rfl | rfl | rfl | rfl | rfl | rfl
    case inr.inr.inr.inl =>
      obtain ⟨n, on, c, -, -, rfl⟩ := layerColor_apply h
      have : i ≠ 3 ∧ i ≠ 9 := by
        have : i ∉ [3, 9] := of_decide_eq_true hl
        simpa using this
      exact (Rec.set_ne (i := 3) (r.set 9 on) c.raw this.1).trans (Rec.set_ne (i := 9) r on this.2)
    all_goals
      obtain ⟨x, -, rfl⟩ := on_apply h
      exact Rec.set_ne r x (Ne.symm (of_decide_eq_true hl))

theorem color_back {color : I16} (h : 0 < color.toInt) (on : Bool) :
    readColor (if on then color else -color) = some (on, ⟨color⟩) := by
  obtain ⟨v, h1, h2⟩ := C31_roundtrip ⟨color⟩ on h
  have ha : absI16 color = some color := by
    unfold absI16
    rw [if_neg (by omega), if_neg (by omega)]
  simp only [writableColor, ha, Option.map_some, Option.some.injEq] at h1
  rw [h1, h2]

end Dxf
