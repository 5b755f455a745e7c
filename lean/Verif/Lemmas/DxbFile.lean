import Verif.Lemmas.Dxb
import Verif.Lemmas.Encoding
import Verif.Lemmas.Good
import Verif.Lemmas.Readers
import Verif.Lemmas.Reload

/-! Loading DXB files: the drawing that is made of what was read, and that there is no panic. -/

namespace Dxf

open Drawing

namespace Dxb

/-! ### What was written -/

theorem loaded_handle {e x : Entity} (h : loaded e = some x) : x.handle = 0#64 := by
  obtain ⟨⟨k, i, y⟩, z⟩ := e
  cases k
  case arc | circle | face3D | line | modelPoint | seqend | solid | trace | vertex | polyline =>
    cases h
    rfl
  all_goals cases h

theorem withHandles_of_handled {e x y : Entity} (h : loaded e = some x) (hy : Entity.Handled x y) :
    ∃ z, e.inDxb = some z ∧ z.WithHandles y := by
  unfold Entity.Handled at hy
  rw [if_pos (loaded_handle h)] at hy
  obtain ⟨hd, h1, h2⟩ := hy
  obtain ⟨⟨k, i, u⟩, c⟩ := e
  cases k
  case arc | circle | face3D | line | modelPoint | seqend | solid | trace | vertex =>
    exact ⟨x, h, hd, h1, h2⟩
  case polyline =>
    cases h
    refine ⟨_, rfl, hd, h1, h2.trans ?_⟩
    simp only [Extra.unhandled, List.map_map]
    rfl
  all_goals cases h

theorem loaded_none {e : Entity} (h : loaded e = none) : e.inDxb = none := by
  obtain ⟨⟨k, i, u⟩, c⟩ := e
  cases k <;> first | rfl | cases h

theorem forall_withHandles {es : List Entity} {ys : List Entity}
    (h : List.Forall₂ Entity.Handled (es.filterMap loaded) ys) :
    List.Forall₂ Entity.WithHandles (es.filterMap Entity.inDxb) ys := by
  induction es generalizing ys with
  | nil =>
    cases h
    exact .nil
  | cons e es ih =>
    cases hl : loaded e with
    | none =>
      rw [List.filterMap_cons_none hl] at h
      rw [List.filterMap_cons_none (loaded_none hl)]
      exact ih h
    | some x =>
      rw [List.filterMap_cons_some hl] at h
      cases h with
      | cons h1 h2 =>
        obtain ⟨z, hz, hw⟩ := withHandles_of_handled hl h1
        rw [List.filterMap_cons_some hz]
        exact .cons hw (ih h2)

theorem sum_loaded (es : List Entity) :
    ((es.filterMap loaded).map fun e => 18 + e.extra.atts.length + e.extra.verts.length).sum ≤
      (es.map fun e => 18 + e.extra.verts.length).sum := by
  induction es with
  | nil => simp
  | cons e es ih =>
    rw [List.map_cons, List.sum_cons]
    cases hl : loaded e with
    | none =>
      rw [List.filterMap_cons_none hl]
      omega
    | some x =>
      rw [List.filterMap_cons_some hl, List.map_cons, List.sum_cons]
      have : x.extra.atts.length + x.extra.verts.length ≤ e.extra.verts.length := by
        obtain ⟨⟨k, i, u⟩, c⟩ := e
        cases k
        case arc | circle | face3D | line | modelPoint | seqend | solid | trace | vertex =>
          cases hl
          exact Nat.zero_le _
        case polyline =>
          cases hl
          change 0 + (c.verts.map vert).length ≤ c.verts.length
          rw [List.length_map]
          omega
        all_goals cases hl
      omega

theorem addEntity_read {Img : Type} {es : List Entity} (h : ∀ e ∈ es, e.handle = 0#64)
    (d : Drawing Img) : (es.foldlM (fun d e => do
      let (_, d) ← d.addEntity e
      return d) d : Except DxfErr (Drawing Img)) = es.foldlM addReadEntity d := by
  induction es generalizing d with
  | nil => rfl
  | cons e es ih =>
    rw [List.foldlM_cons, List.foldlM_cons]
    have : d.addReadEntity e = (do
      let (_, d) ← d.addEntity e
      return d) := if_pos (h e List.mem_cons_self)
    rw [this]
    refine bind_congr fun d' => ?_
    exact ih (fun x hx => h x (List.mem_cons_of_mem _ hx)) d'

/-- The first line of the file. -/
theorem sentinel_line (enc : Enc) (rest : List Byte) :
    Dxf.readLine true enc (sentinel ++ rest) =
      (.ok str!"AutoCAD DXB 1.0", [byte 0x1A, byte 0] ++ rest) := by
  have ha : ∀ c ∈ str!"AutoCAD DXB 1.0" ++ ['\r'], c.toNat < 128 := by decide
  have h := readLine_written true enc str!"AutoCAD DXB 1.0" ([byte 0x1A, byte 0] ++ rest)
    (by decide) (fun _ => by decide) (decode_ascii enc ha)
  have e : sentinel ++ rest = utf8Encode (str!"AutoCAD DXB 1.0" ++ str!"\r\n") ++
      ([byte 0x1A, byte 0] ++ rest) := by
    rw [utf8Encode_ascii (by decide)]
    rfl
  rw [e]
  exact h

theorem clear_next {Img : Type} (d : Drawing Img) : d.clear.next = 1#64 := rfl

/-- A drawing without blocks that is saved as DXB and loaded. -/
theorem reload {Img : Type} {h0 : Header} (hfr : h0.Fresh) (order : List Str)
    (ho : 41 + 2 * order.length < 2 ^ 64) (enc : Enc) (d : Drawing Img) (hb : d.blocks = [])
    (hl : ∀ e ∈ d.entities, Str.Latin e.layer)
    (hroom : 1 + (d.entities.map fun e => 18 + e.extra.verts.length).sum < 2 ^ 64) :
    ∃ d0 d' : Drawing Img, Drawing.new h0 order = .ok d0 ∧
      loadDxbFile enc h0 order d.saveDxb = .ok (some d') ∧
      Entitied (d.entities.filterMap loaded) d0.clear d' := by
  obtain ⟨d0, h1⟩ := new_ok (Img := Img) hfr order ho
  obtain ⟨s', h2⟩ := items_written d.entities hl []
  have h3 := collect_written d.entities _ (Nat.lt_succ_self _)
  obtain ⟨d', h4, -⟩ := affords_fold (Img := Img) addReadEntity _ affords_readEntity
    (d.entities.filterMap loaded) d0.clear 0 (by
      have := sum_loaded d.entities
      unfold Room
      rw [clear_next]
      change 1 + _ < _
      omega)
  refine ⟨d0, d', h1, ?_, entitied h4⟩
  have hw : d.saveDxb = sentinel ++ (item 135 ++ w 1#16 ++ item 136 ++ w 0#16 ++
      entities none 0#16 d.entities ++ [byte 0]) := by
    unfold saveDxb
    dsimp only
    split
    · rename_i e
      rw [hb] at e
      cases e
    · simp only [List.append_assoc]
  rw [loadDxbFile, hw, sentinel_line]
  dsimp only
  rw [if_pos rfl, loadDxb, h2]
  simp only [bind, Except.bind]
  rw [h3]
  simp only [bind, Except.bind]
  rw [h1]
  simp only [bind, Except.bind]
  have := addEntity_read (Img := Img) (es := d.entities.filterMap loaded) (fun e he => by
    obtain ⟨x, -, hx⟩ := List.mem_filterMap.mp he
    exact loaded_handle hx) d0.clear
  simp only [bind, Except.bind] at this
  rw [this, h4]
  rfl

/-! ### Reading anything -/

theorem notBad {e : DxfErr} (h1 : e ≠ .panic) (h2 : e ≠ .outOfFuel) : ¬ e.Bad
  | .inl h => h1 h
  | .inr h => h2 h

theorem readStringBin_err (bs : List Byte) {e : DxfErr} (h : (readStringBin bs).1 = .error e) :
    e = .unexpectedEndOfInput := by
  induction bs with
  | nil =>
    cases h
    rfl
  | cons b bs ih =>
    rw [readStringBin] at h
    split at h
    · cases h
    · dsimp only at h
      rcases hr : (readStringBin bs).1 with e' | v
      · rw [hr] at h
        cases h
        exact ih hr
      · rw [hr] at h
        cases h

theorem short_notBad (s : DxbReader) : ¬ s.short.Bad := by
  unfold DxbReader.short
  split <;> exact notBad (fun h => nomatch h) (fun h => nomatch h)

/-- The function does not panic, and does not give back bytes. -/
def Tame {α : Type} (m : DxbM α) : Prop := ∀ s, match m s with
  | .ok (_, s') => s'.size ≤ s.size
  | .error e => ¬ e.Bad

namespace Tame

variable {α β : Type}

theorem bind {m : DxbM α} {f : α → DxbM β} (h : Tame m) (hf : ∀ a, Tame (f a)) :
    Tame (m >>= f) := by
  intro s
  have h1 := h s
  cases hm : m s with
  | error e =>
    rw [hm] at h1
    rw [run_err hm]
    exact h1
  | ok r =>
    obtain ⟨a, s'⟩ := r
    rw [hm] at h1
    rw [run_bind hm]
    have h2 := hf a s'
    split at h2
    · exact Nat.le_trans h2 h1
    · exact h2

theorem pure (a : α) : Tame (Pure.pure a : DxbM α) := fun _ => Nat.le_refl _

theorem get : Tame (MonadState.get : DxbM DxbReader) := fun _ => Nat.le_refl _

theorem modify {f : DxbReader → DxbReader} (h : ∀ s, (f s).size = s.size) :
    Tame (_root_.modify f : DxbM PUnit) := fun s => by
  change (f s).size ≤ _
  rw [h]

theorem fail {e : DxfErr} (h : ¬ e.Bad) : Tame (Dxb.fail e : DxbM α) := fun _ => h

theorem word (n : Nat) : Tame (Dxb.word n) := by
  intro s
  by_cases h : n ≤ s.bytes.length
  · rw [show Dxb.word n s = _ from if_pos h]
    change (s.bytes.drop n).length + s.later.flatten.length ≤
      s.bytes.length + s.later.flatten.length
    rw [List.length_drop]
    omega
  · rw [show Dxb.word n s = _ from if_neg h]
    exact short_notBad s

theorem readA : Tame readA := .bind .get fun _ => .bind (.word 4) fun _ => .pure _

theorem readU : Tame readU := .bind .get fun _ => .bind (.word 4) fun _ => .pure _

theorem readW : Tame readW := .bind .get fun _ => .bind (.word 2) fun _ => .pure _

theorem readF : Tame readF := fun s => by
  by_cases h : 8 ≤ s.bytes.length
  · rw [show Dxb.readF s = _ from if_pos h]
    change (s.bytes.drop 8).length + s.later.flatten.length ≤
      s.bytes.length + s.later.flatten.length
    rw [List.length_drop]
    omega
  · rw [show Dxb.readF s = _ from if_neg h]
    change (s.later.headD []).length + s.later.tail.flatten.length ≤
      s.bytes.length + s.later.flatten.length
    cases s.later with
    | nil => exact Nat.zero_le _
    | cons c cs =>
      rw [List.headD_cons, List.tail_cons, List.flatten_cons, List.length_append]
      omega

theorem readN : Tame readN := by
  refine .bind .get fun s => ?_
  split
  · exact .bind (.word 2) fun _ => .pure _
  · exact .bind (.word 4) fun _ => .pure _

theorem readString : Tame readString := by
  intro s
  have h := readStringBin_length_le s.bytes
  unfold Dxb.readString
  generalize readStringBin s.bytes = r at h
  rcases r with ⟨v | v, rest⟩
  · exact short_notBad s
  · exact Nat.add_le_add_right h _

theorem readXy : Tame readXy := .bind .readN fun _ => .bind .readN fun _ => .pure _

theorem readXyz : Tame readXyz :=
  .bind .readN fun _ => .bind .readN fun _ => .bind .readN fun _ => .pure _

theorem wrap (k : EName) (r : Rec k.decls) : Tame (wrap k r) := .bind .get fun _ => .pure _

theorem line (p q : Point) : Tame (do
    _root_.modify fun s => { s with lastLinePoint := q }
    mkLine p q) := .bind (.modify fun _ => rfl) fun _ => .wrap _ _

theorem trace (p q r s : Point) : Tame (mkTrace p q r s) :=
  .bind (.modify fun _ => rfl) fun _ => .wrap _ _

theorem readEntity? {i : Nat} {m : DxbM Flat} (h : readEntity? i = some m) : Tame m := by
  unfold Dxb.readEntity? at h
  split at h <;> cases h
  · exact .bind .readXyz fun _ => .bind .readXyz fun _ => .line _ _
  · exact .bind .readXyz fun _ => .bind .readXyz fun _ => .line _ _
  · exact .bind .readXy fun _ => .wrap _ _
  · exact .bind .readXy fun _ => .bind .readN fun _ => .wrap _ _
  · exact .bind .readXy fun _ => .bind .readN fun _ => .bind .readA fun _ => .bind .readA fun _ =>
      .wrap _ _
  · exact .bind .readXy fun _ => .bind .readXy fun _ => .bind .readXy fun _ => .bind .readXy fun _ =>
      .trace _ _ _ _
  · exact .bind .readXy fun _ => .bind .readXy fun _ => .bind .readXy fun _ => .bind .readXy fun _ =>
      .wrap _ _
  · exact .wrap _ _
  · exact .bind .readW fun _ => .wrap _ _
  · exact .bind .readXy fun _ => .wrap _ _
  · exact .bind .readXyz fun _ => .bind .readXyz fun _ => .bind .readXyz fun _ =>
      .bind .readXyz fun _ => .wrap _ _
  · exact .bind .readXy fun _ => .bind .get fun _ => .line _ _
  · exact .bind .readXy fun _ => .bind .readXy fun _ => .bind .get fun _ => .trace _ _ _ _
  · exact .bind .readXyz fun _ => .bind .get fun _ => .line _ _

theorem updateVertex (f : Rec EName.vertex.decls → Rec EName.vertex.decls) (found : Found) :
    Tame (updateVertex f found) := by
  refine .bind .get fun s => ?_
  split
  · exact .fail (notBad (fun h => nomatch h) (fun h => nomatch h))
  · exact .pure _
  · exact .fail (notBad (fun h => nomatch h) (fun h => nomatch h))

theorem readOther? {i : Nat} {found : Found} {m : DxbM Found} (h : readOther? i found = some m) :
    Tame m := by
  unfold Dxb.readOther? at h
  split at h <;> cases h
  · exact .bind .readW fun _ => .bind (.modify fun _ => rfl) fun _ => .pure _
  · exact .bind .readString fun _ => .bind (.modify fun _ => rfl) fun _ => .pure _
  · exact .bind .readF fun _ => .bind (.modify fun _ => rfl) fun _ => .pure _
  · refine .bind .readXy fun _ => ?_
    split
    · exact .pure _
    · exact .fail (notBad (fun h => nomatch h) (fun h => nomatch h))
  · exact .bind .readU fun _ => .updateVertex _ _
  · exact .bind .readW fun _ => .bind (.modify fun _ => rfl) fun _ => .pure _
  · exact .bind .readN fun _ => .bind .readN fun _ => .updateVertex _ _

theorem expect (b : Byte) (n : Nat) : Tame (expect b n) := by
  refine .bind (.word 1) fun _ => ?_
  split
  · exact .pure _
  · exact .fail (notBad (fun h => nomatch h) (fun h => nomatch h))

end Tame

/-- The number of entities is not changed. -/
def Same {α : Type} (n : Nat) (f : α → Nat) (m : DxbM α) : Prop :=
  ∀ s a s', m s = .ok (a, s') → f a = n

theorem Same.bind {α β : Type} {n : Nat} {f : β → Nat} {m : DxbM α} {g : α → DxbM β}
    (h : ∀ a, Same n f (g a)) : Same n f (m >>= g) := by
  intro s b s' hb
  cases hm : m s with
  | error e =>
    rw [run_err hm] at hb
    cases hb
  | ok r =>
    obtain ⟨a, s1⟩ := r
    rw [run_bind hm] at hb
    exact h a s1 b s' hb

theorem Same.pure {α : Type} {n : Nat} {f : α → Nat} {a : α} (h : f a = n) :
    Same n f (Pure.pure a : DxbM α) := by
  intro s b s' hb
  cases hb
  exact h

theorem Same.fail {α : Type} {n : Nat} {f : α → Nat} {e : DxfErr} : Same n f (Dxb.fail e : DxbM α) := by
  intro s b s' hb
  cases hb

theorem same_updateVertex (f : Rec EName.vertex.decls → Rec EName.vertex.decls) (found : Found) :
    Same found.entities.length (·.entities.length) (updateVertex f found) := by
  refine .bind fun s => ?_
  split
  · exact .fail
  · rename_i h
    refine .pure ?_
    have : found.entities ≠ [] := by
      rintro e
      rw [e] at h
      cases h
    have := List.length_pos_iff.mpr this
    simp only [List.length_append, List.length_dropLast, List.length_singleton]
    omega
  · exact .fail

theorem same_readOther? {i : Nat} {found : Found} {m : DxbM Found}
    (h : readOther? i found = some m) : Same found.entities.length (·.entities.length) m := by
  unfold Dxb.readOther? at h
  split at h <;> cases h
  · exact .bind fun _ => .bind fun _ => .pure rfl
  · exact .bind fun _ => .bind fun _ => .pure rfl
  · exact .bind fun _ => .bind fun _ => .pure rfl
  · refine .bind fun _ => ?_
    split
    · exact .pure rfl
    · exact .fail
  · exact .bind fun _ => same_updateVertex _ _
  · exact .bind fun _ => .bind fun _ => .pure rfl
  · exact .bind fun _ => .bind fun _ => same_updateVertex _ _

/-- There are at most `n` entities, or there is an error that is no panic. -/
def Bounded (n : Nat) (r : Except DxfErr (Found × DxbReader)) : Prop :=
  match r with
  | .ok (found, _) => found.entities.length ≤ n
  | .error e => ¬ e.Bad

theorem Bounded.mono {n m : Nat} {r : Except DxfErr (Found × DxbReader)} (h : Bounded n r)
    (hm : n ≤ m) : Bounded m r := by
  unfold Bounded at *
  split at h
  · exact Nat.le_trans h hm
  · exact h

/-- The loop ends, and finds at most as many entities as there are bytes. -/
theorem loop_tame (fuel : Nat) (found : Found) (s : DxbReader) (h : s.size < fuel) :
    Bounded (found.entities.length + s.size) (loop fuel found s) := by
  induction fuel generalizing found s with
  | zero => omega
  | succ fuel ih =>
    unfold loop
    rw [run_get]
    by_cases hb : 1 ≤ s.bytes.length
    · rw [run_bind (show word 1 s = _ from if_pos hb)]
      have hl : (s.bytes.drop 1).length + 1 = s.bytes.length := by
        rw [List.length_drop]
        omega
      generalize leVal (s.bytes.take 1) = i
      generalize hs1 : ({ s with bytes := s.bytes.drop 1, offset := s.offset + 1 } : DxbReader) = s1
      have hl1 : s1.size + 1 = s.size := by
        rw [← hs1]
        change (s.bytes.drop 1).length + s.later.flatten.length + 1 =
          s.bytes.length + s.later.flatten.length
        omega
      split
      · exact Nat.le_add_right _ _
      · cases hr : readEntity? i with
        | some read =>
          have ht := Tame.readEntity? hr s1
          dsimp only
          cases hm : read s1 with
          | error e =>
            rw [hm] at ht
            rw [run_err hm]
            exact ht
          | ok r =>
            obtain ⟨e, s2⟩ := r
            rw [hm] at ht
            rw [run_bind hm]
            dsimp only at ht
            refine (ih { found with entities := found.entities ++ [e] } s2 (by omega)).mono ?_
            rw [List.length_append]
            simp only [List.length_singleton]
            omega
        | none =>
          cases hr2 : readOther? i found with
          | some read =>
            have ht := Tame.readOther? hr2 s1
            have hn := same_readOther? hr2 s1
            dsimp only
            cases hm : read s1 with
            | error e =>
              rw [hm] at ht
              rw [run_err hm]
              exact ht
            | ok r =>
              obtain ⟨found2, s2⟩ := r
              rw [hm] at ht
              have hn : found2.entities.length = found.entities.length := hn _ _ hm
              rw [run_bind hm]
              dsimp only at ht
              exact (ih found2 s2 (by omega)).mono (by omega)
          | none => exact notBad (fun h => nomatch h) (fun h => nomatch h)
    · rw [run_err (show word 1 s = _ from if_neg hb)]
      exact short_notBad s

theorem items_tame (s : DxbReader) : Bounded s.size (items s) := by
  unfold items
  have h1 := Tame.expect (byte 0x1A) 16 s
  cases hm : expect (byte 0x1A) 16 s with
  | error e =>
    rw [hm] at h1
    rw [run_err hm]
    exact h1
  | ok r =>
    obtain ⟨⟨⟩, s1⟩ := r
    rw [hm] at h1
    rw [run_bind hm]
    have h2 := Tame.expect (byte 0) 17 s1
    cases hm2 : expect (byte 0) 17 s1 with
    | error e =>
      rw [hm2] at h2
      rw [run_err hm2]
      exact h2
    | ok r =>
      obtain ⟨⟨⟩, s2⟩ := r
      rw [hm2] at h2
      rw [run_bind hm2, run_get]
      dsimp only at h1 h2
      refine (loop_tame _ ⟨none, []⟩ s2 (Nat.lt_succ_self _)).mono ?_
      rw [List.length_nil]
      omega

/-! ### Gathering anything -/

theorem gatherVerts_length (xs : List Flat) :
    (gatherVerts xs).1.length + (gatherVerts xs).2.length = xs.length := by
  induction xs with
  | nil => rfl
  | cons x xs ih =>
    unfold gatherVerts
    split
    · rename_i heq
      cases heq
      simp only [List.length_cons]
      omega
    · simp

theorem gatherAtts_length (xs : List Flat) :
    (gatherAtts xs).1.length + (gatherAtts xs).2.length = xs.length := by
  induction xs with
  | nil => rfl
  | cons x xs ih =>
    unfold gatherAtts
    split
    · rename_i heq
      cases heq
      simp only [List.length_cons]
      omega
    · simp

theorem swallowSeqend_length (xs : List Flat) : (swallowSeqend xs).length ≤ xs.length := by
  unfold swallowSeqend
  split
  · exact Nat.le_succ _
  · exact Nat.le_refl _

theorem takeMText_length (xs : List Flat) : (takeMText xs).2.length ≤ xs.length := by
  unfold takeMText
  split
  · exact Nat.le_succ _
  · exact Nat.le_refl _

/-- The number of handles that adding the entities needs. -/
def demand (es : List Entity) : Nat :=
  (es.map fun e => 18 + e.extra.atts.length + e.extra.verts.length).sum

theorem demand_cons (e : Entity) (es : List Entity) :
    demand (e :: es) = 18 + e.extra.atts.length + e.extra.verts.length + demand es := by
  unfold demand
  rw [List.map_cons, List.sum_cons]

theorem collect_tame (fuel : Nat) (xs : List Flat) (h : xs.length < fuel) :
    ∃ es, collect fuel xs = .ok es ∧ demand es ≤ 18 * xs.length ∧ es.length ≤ xs.length := by
  induction fuel generalizing xs with
  | zero => omega
  | succ fuel ih =>
    cases xs with
    | nil => exact ⟨[], rfl, Nat.zero_le _, Nat.zero_le _⟩
    | cons x xs =>
      rw [List.length_cons] at h
      unfold collect
      split
      · have h1 := takeMText_length xs
        obtain ⟨es, e, h2, h3⟩ := ih (takeMText xs).2 (by omega)
        refine ⟨withMText x (takeMText xs).1 :: es, ?_, ?_, ?_⟩
        · dsimp only
          rw [e]
          rfl
        · have : (withMText x (takeMText xs).1).extra.atts.length +
              (withMText x (takeMText xs).1).extra.verts.length = 0 := by
            cases (takeMText xs).1 <;> rfl
          rw [demand_cons, List.length_cons]
          omega
        · simp only [List.length_cons]
          omega
      · split
        · have h1 := gatherAtts_length xs
          have h1' := swallowSeqend_length (gatherAtts xs).2
          obtain ⟨es, e, h2, h3⟩ := ih (swallowSeqend (gatherAtts xs).2) (by omega)
          refine ⟨⟨x, { Extra.dflt with atts := (gatherAtts xs).1 }⟩ :: es, ?_, ?_, ?_⟩
          · dsimp only
            rw [e]
            rfl
          · rw [demand_cons, List.length_cons]
            change 18 + (gatherAtts xs).1.length + 0 + _ ≤ _
            omega
          · simp only [List.length_cons]
            omega
        · split
          · have h1 := gatherVerts_length xs
            have h1' := swallowSeqend_length (gatherVerts xs).2
            obtain ⟨es, e, h2, h3⟩ := ih (swallowSeqend (gatherVerts xs).2) (by omega)
            refine ⟨⟨x, { Extra.dflt with verts := (gatherVerts xs).1 }⟩ :: es, ?_, ?_, ?_⟩
            · dsimp only
              rw [e]
              rfl
            · rw [demand_cons, List.length_cons]
              change 18 + 0 + (gatherVerts xs).1.length + _ ≤ _
              omega
            · simp only [List.length_cons]
              omega
          · obtain ⟨es, e, h2, h3⟩ := ih xs (by omega)
            refine ⟨⟨x, Extra.dflt⟩ :: es, ?_, ?_, ?_⟩
            · rw [e]
              rfl
            · rw [demand_cons, List.length_cons]
              change 18 + 0 + 0 + _ ≤ _
              omega
            · simp only [List.length_cons]
              omega

/-! ### Loading anything -/

variable {Img : Type}

theorem gains_entities {es : List Entity} {d d' : Drawing Img}
    (h : (es.foldlM (fun d e => do
      let (_, d) ← d.addEntity e
      return d) d : Except DxfErr (Drawing Img)) = .ok d') : Gains (fun _ => []) d d' := by
  induction es generalizing d with
  | nil =>
    cases h
    exact .refl _
  | cons e es ih =>
    rw [List.foldlM_cons] at h
    obtain ⟨d1, h1, h⟩ := bind_ok h
    obtain ⟨⟨e', d2⟩, h1, h2⟩ := bind_ok h1
    cases h2
    exact (gains_addEntity h1 fun _ => .inl rfl).trans (ih h)

theorem clear_handles (d : Drawing Img) : d.clear.handles = [] := by
  simp [handles, clear, TName.all]

theorem clear_sound {d d' : Drawing Img} (g : Gains (fun _ => []) d.clear d') : d'.Sound := by
  obtain ⟨fs, h1, h2, h3⟩ := g.fresh
  rw [clear_next] at h2
  simp only [handlesOf_none, clear_handles, List.count_nil, Nat.zero_add] at h3
  refine ⟨List.nodup_iff_count.mpr fun x => ?_, fun x hx => ?_⟩
  · have := h3 x
    have := List.nodup_iff_count.mp h1 x
    omega
  · have := h3 x
    have := List.count_pos_iff.mpr hx
    have := h2 x (List.count_pos_iff.mp (by omega))
    rw [BitVec.lt_def, BitVec.lt_def]
    simp only [BitVec.toNat_zero, BitVec.reduceToNat] at *
    omega

/-- Any file is loaded or refused. -/
theorem load_tame {h0 : Header} (hfr : h0.Fresh) (order : List Str)
    (ho : 41 + 2 * order.length < 2 ^ 64) (bytes : List Byte)
    (later : List (List Byte)) (hb : bytes.length + later.flatten.length < 2 ^ 58) :
    match (loadDxb h0 order bytes later : Except DxfErr (Drawing Img)) with
    | .ok d => d.Sound
    | .error e => ¬ e.Bad := by
  have h1 := items_tame (reader bytes later)
  unfold loadDxb
  rcases hi : items (reader bytes later) with e | ⟨found, s⟩
  · rw [hi] at h1
    exact h1
  · rw [hi] at h1
    replace h1 : found.entities.length ≤ bytes.length + later.flatten.length := h1
    obtain ⟨es, h2, h3, h4⟩ := collect_tame (found.entities.length + 1) found.entities
      (Nat.lt_succ_self _)
    obtain ⟨d0, h5⟩ := new_ok (Img := Img) hfr order ho
    have room : Room (18 * found.entities.length + 6) d0.clear := by
      unfold Room
      rw [clear_next]
      change 1 + _ < _
      omega
    simp only [bind, Except.bind, h2, h5]
    cases found.base with
    | some p =>
      obtain ⟨⟨b, d'⟩, h6, -⟩ := affords_block d0.clear (dxbBlock p es) 0 (room.mono (by
        change 5 + 5 * es.length + 0 ≤ _
        omega))
      dsimp only
      rw [h6]
      exact clear_sound (gains_addBlock h6 fun _ _ _ => rfl)
    | none =>
      obtain ⟨d', h6, -⟩ := affords_fold (Img := Img) (fun d e => do
        let (_, d) ← d.addEntity e
        return d) (fun e => 18 + e.extra.atts.length + e.extra.verts.length) (fun d e => by
          refine (affords_entity d e).bind (l := 0) ?_
          rintro ⟨y, d1⟩ -
          exact .pure rfl) es d0.clear 0 (room.mono (by
            change demand es + 0 ≤ _
            omega))
      have h7 := clear_sound (gains_entities h6)
      simp only [bind, Except.bind] at h6
      dsimp only
      rw [h6]
      exact h7

end Dxb

end Dxf
