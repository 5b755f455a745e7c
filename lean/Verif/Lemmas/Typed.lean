import Verif.Spec.Typed
import Verif.Lemmas.Block
import Verif.Lemmas.Class
import Verif.Lemmas.Brackets

/-! Pairs that are written have the type their code asks for. -/

namespace Dxf

/-- All pairs have the type their code asks for. -/
def Typed (ps : List CodePair) : Prop := ∀ p ∈ ps, p.WellTyped

theorem Typed.nil : Typed [] := fun _ h => nomatch h

theorem Typed.cons {p : CodePair} {ps : List CodePair} (h : p.WellTyped) (hs : Typed ps) :
    Typed (p :: ps) := List.forall_mem_cons.mpr ⟨h, hs⟩

theorem Typed.append {a b : List CodePair} (ha : Typed a) (hb : Typed b) :
    Typed (a ++ b) := List.forall_mem_append.mpr ⟨ha, hb⟩

theorem Typed.flatMap {α : Type} {l : List α} {f : α → List CodePair}
    (h : ∀ x ∈ l, Typed (f x)) : Typed (l.flatMap f) := by
  intro p hp
  obtain ⟨x, hx, hp⟩ := List.mem_flatMap.mp hp
  exact h x hx p hp

theorem Typed.map {α : Type} {l : List α} {f : α → CodePair}
    (h : ∀ x ∈ l, (f x).WellTyped) : Typed (l.map f) := by
  intro p hp
  obtain ⟨x, hx, rfl⟩ := List.mem_map.mp hp
  exact h x hx

theorem Typed.ite {c : Prop} [Decidable c] {a b : List CodePair} (ha : Typed a)
    (hb : Typed b) : Typed (if c then a else b) := by
  split <;> assumption

theorem typed_str {c : Int} (h : ExpectedType.new c = some .str) (s : Str) :
    (CodePair.newStr c s).WellTyped := h

theorem typed_i16 {c : Int} (h : ExpectedType.new c = some .short) (x : I16) :
    (CodePair.newI16 c x).WellTyped := h

theorem typed_i32 {c : Int} (h : ExpectedType.new c = some .integer) (x : I32) :
    (CodePair.newI32 c x).WellTyped := h

theorem typed_f64 {c : Int} (h : ExpectedType.new c = some .double) (x : F64) :
    (CodePair.newF64 c x).WellTyped := h

/-- The type of the values a write conversion produces. -/
def Wire.type : Wire → ExpectedType
  | .bool => .boolean
  | .i16 => .short
  | .i32 => .integer
  | .i64 => .long
  | .f64 => .double
  | .str => .str
  | .handle => .str
  | .bytes => .binary

theorem Wire.is_type {w : Wire} {v : CodePairValue} (h : w.Is v) : v.type = w.type := by
  cases w <;> cases v <;> first | rfl | exact h.elim

/-- The statement writes pairs of the right type. -/
def Cmd.typed {ds : List Decl} : Cmd ds → Bool
  | .const p => decide p.WellTyped
  | .field _ w => w.wires.all fun x => decide (ExpectedType.new x.1 = some x.2.type)
  | .computed code c _ => decide (ExpectedType.new code = some c.wire.type)

theorem Cmd.emit_typed {ds : List Decl} (c : Cmd ds) (h : c.typed = true) (r : Rec ds) :
    Typed (c.emit r) := by
  intro p hp
  cases c with
  | const q =>
    simp only [Cmd.emit, List.mem_singleton] at hp
    subst hp
    exact of_decide_eq_true h
  | field i w =>
    obtain ⟨x, hx, h1, h2⟩ := w.mem_emit_wire _ p hp
    have := of_decide_eq_true (List.all_eq_true.mp h x hx)
    unfold CodePair.WellTyped
    rw [← h1, this, Wire.is_type h2]
  | computed code c f =>
    simp only [Cmd.emit, List.mem_singleton] at hp
    subst hp
    have := of_decide_eq_true h
    unfold CodePair.WellTyped
    rw [WConv.write_code, this, Wire.is_type (c.write_is code _)]

def GCmd.typed {ds : List Decl} (cmds : List (GCmd ds)) : Bool := cmds.all fun g => g.cmd.typed

theorem emitAll_typed {ds : List Decl} (cmds : List (GCmd ds)) (v : Version) (r : Rec ds)
    (h : GCmd.typed cmds = true) : Typed (emitAll cmds v r) := by
  intro p hp
  obtain ⟨g, hg, _, hp⟩ := mem_emitAll hp
  exact g.cmd.emit_typed (List.all_eq_true.mp h g hg) r p hp

mutual
theorem xitem_typed : (i : XDataItem) → Typed i.pairs
  | .str s => .cons (typed_str (by decide) _) .nil
  | .controlGroup items => by
    rw [XDataItem.pairs]
    exact .append (.cons (typed_str (by decide) _) (xitems_typed items))
      (.cons (typed_str (by decide) _) .nil)
  | .layerName l => .cons (typed_str (by decide) _) .nil
  | .binaryData b => .cons (typed_str (by decide) _) .nil
  | .handle h => .cons (typed_str (by decide) _) .nil
  | .threeReals x y z => .cons (typed_f64 (by decide) _) (.cons (typed_f64 (by decide) _)
      (.cons (typed_f64 (by decide) _) .nil))
  | .worldSpacePosition p => .cons (typed_f64 (by decide) _) (.cons (typed_f64 (by decide) _)
      (.cons (typed_f64 (by decide) _) .nil))
  | .worldSpaceDisplacement p => .cons (typed_f64 (by decide) _) (.cons (typed_f64 (by decide) _)
      (.cons (typed_f64 (by decide) _) .nil))
  | .worldDirection v => .cons (typed_f64 (by decide) _) (.cons (typed_f64 (by decide) _)
      (.cons (typed_f64 (by decide) _) .nil))
  | .real f => .cons (typed_f64 (by decide) _) .nil
  | .distance f => .cons (typed_f64 (by decide) _) .nil
  | .scaleFactor f => .cons (typed_f64 (by decide) _) .nil
  | .integer i => .cons (typed_i16 (by decide) _) .nil
  | .long i => .cons (typed_i32 (by decide) _) .nil
theorem xitems_typed : (is : List XDataItem) → Typed (XDataItem.pairsList is)
  | [] => .nil
  | i :: is => by
    rw [XDataItem.pairsList]
    exact .append (xitem_typed i) (xitems_typed is)
end

theorem xdata_typed (xs : List XData) (v : Version) : Typed (xs.flatMap fun x => x.pairs v) := by
  refine .flatMap fun x _ => ?_
  unfold XData.pairs
  exact .ite (.cons (typed_str (by decide) _) (xitems_typed _)) .nil

mutual
theorem item_typed : (i : ExtItem) → Typed i.held → Typed i.pairs
  | .pair p, h => by
    rw [ExtItem.pairs]
    rw [ExtItem.held] at h
    exact h
  | .group name [], h => by
    rw [ExtItem.pairs]
    exact .nil
  | .group name (i :: is), h => by
    rw [ExtItem.held, ExtItem.heldList] at h
    rw [ExtItem.pairs]
    have h := List.forall_mem_append.mp h
    exact .append (.cons (typed_str (by decide) _) (.append (item_typed i h.1)
      (items_typed is h.2))) (.cons (typed_str (by decide) _) .nil)
theorem items_typed : (is : List ExtItem) → Typed (ExtItem.heldList is) →
    Typed (ExtItem.pairsList is)
  | [], _ => by
    rw [ExtItem.pairsList]
    exact .nil
  | i :: is, h => by
    rw [ExtItem.heldList] at h
    rw [ExtItem.pairsList]
    have h := List.forall_mem_append.mp h
    exact .append (item_typed i h.1) (items_typed is h.2)
end

theorem group_typed {g : ExtGroup} (h : Typed g.held) : Typed g.pairs := by
  unfold ExtGroup.pairs
  exact .ite .nil (.append (.cons (typed_str (by decide) _) (items_typed _ h))
    (.cons (typed_str (by decide) _) .nil))

theorem ext_typed {gs : List ExtGroup} (v : Version) (h : Typed (gs.flatMap ExtGroup.held)) :
    Typed (if .r14 ≤ v then gs.flatMap ExtGroup.pairs else []) :=
  .ite (.flatMap fun g hg => group_typed fun p hp => h p (List.mem_flatMap.mpr ⟨g, hg, hp⟩)) .nil

/-! ### Header, classes and tables -/

theorem header_typed (r : Header) : Typed r.body := by
  have h : (Header.cmds.all fun c => c.g.cmd.typed) = true := by decide +kernel
  refine Typed.flatMap fun c hc => ?_
  unfold HCmd.emit
  exact .ite (.cons (typed_str (by decide) _) (c.g.cmd.emit_typed (List.all_eq_true.mp h c hc) r)) .nil

theorem class_typed (v : Version) (c : Class) : Typed (c.pairs v) := by
  unfold Class.pairs
  refine .append (.ite (.append (.cons (typed_str (by decide) _) (.cons (typed_str (by decide) _)
    (.cons (typed_str (by decide) _) (.cons (typed_str (by decide) _)
      (.cons (typed_i32 (by decide) _) .nil))))) (.ite (.cons (typed_i32 (by decide) _) .nil) .nil))
    (.cons (typed_str (by decide) _) (.cons (typed_str (by decide) _)
    (.cons (typed_str (by decide) _) (.cons (typed_i32 (by decide) _) .nil)))))
    (.cons (typed_i16 (by decide) _) (.cons (typed_i16 (by decide) _) .nil))

theorem tables_typed (t : TName) (wh : Bool) :
    (GCmd.typed (t.kind.head wh) && GCmd.typed t.kind.cmds) = true := by
  cases wh <;> cases t <;> decide +kernel

theorem tableItem_typed (K : TableKind) (v : Version) (wh : Bool) (x : TableItem K)
    (hk : (GCmd.typed (K.head wh) && GCmd.typed K.cmds) = true)
    (h : Typed (x.ext.flatMap ExtGroup.held)) : Typed (K.itemPairs v wh x) := by
  simp only [Bool.and_eq_true] at hk
  unfold TableKind.itemPairs
  exact .append (.append (.append (.cons (typed_str (by decide) _)
    (emitAll_typed _ v _ hk.1)) (ext_typed v h)) (emitAll_typed _ v _ hk.2)) (xdata_typed _ _)

/-! ### Entities -/

theorem entity_cmds_typed (k : EName) (n : Nat) : GCmd.typed (k.kind.cmds n) = true := by
  cases k
  case dimension =>
    match n with
    | 0 => decide +kernel
    | 1 => decide +kernel
    | 2 => decide +kernel
    | 3 => decide +kernel
    | 4 => decide +kernel
    | 5 => decide +kernel
    | _ + 6 => rfl
  all_goals rfl

theorem entity_common_typed (k : EName) (wh : Bool) :
    (GCmd.typed (commonHead k.kind.spec wh) && GCmd.typed (commonCmds k.kind.spec wh)) = true := by
  cases wh <;> rfl

theorem entity_typed (k : EName) (n : Nat) (v : Version) (wh : Bool) (e : Entry k.decls)
    {post : List CodePair} (hp : Typed post) (h : Typed (e.ext.flatMap ExtGroup.held)) :
    Typed (k.pairs n v wh e post) := by
  have h1 := entity_cmds_typed k n
  have h2 := entity_common_typed k wh
  simp only [Bool.and_eq_true] at h2
  unfold EName.pairs EName.front
  refine .ite (.append (.append (.append (.append (.cons (typed_str (by decide) _)
    (emitAll_typed _ v _ h2.1)) (ext_typed v h)) (emitAll_typed _ v _ ?_)) hp) (xdata_typed _ _)) .nil
  unfold GCmd.typed at h1 h2 ⊢
  rw [List.all_append, h2.2, h1]
  rfl

theorem mText_typed (v : Version) (wh : Bool) (c : Rec commonDecls) (m : MTextRec) :
    Typed (mTextPairs v wh c m) :=
  entity_typed _ _ _ _ _ .nil .nil

theorem seqend_typed (wh : Bool) (h : Handle) : Typed (seqendPairs wh h) := by
  unfold seqendPairs
  refine .cons (typed_str (by decide) _) ?_
  cases wh
  · exact .nil
  · exact .cons (typed_str (by decide) _) .nil

theorem post_typed (v : Version) (wh : Bool) (e : Entity) : Typed (e.post v wh) := by
  unfold Entity.post
  split
  · exact mText_typed _ _ _ _
  · exact mText_typed _ _ _ _
  · refine .append (.flatMap fun a _ => entity_typed _ _ _ _ _ (mText_typed _ _ _ _) .nil) ?_
    rename_i x
    cases x.atts.isEmpty
    · exact seqend_typed _ _
    · exact .nil
  · exact .append (.flatMap fun a _ => entity_typed _ _ _ _ _ .nil .nil) (seqend_typed _ _)
  · exact .nil

theorem wholeEntity_typed (v : Version) (wh : Bool) (e : Entity)
    (h : Typed (e.entry.ext.flatMap ExtGroup.held)) : Typed (e.pairs v wh) :=
  entity_typed _ _ _ _ _ (post_typed v wh e) h

theorem block_typed (v : Version) (wh : Bool) (b : Block)
    (h : Typed (b.entry.ext.flatMap ExtGroup.held))
    (he : ∀ e ∈ b.entities, Typed (e.entry.ext.flatMap ExtGroup.held)) : Typed (b.pairs v wh) := by
  unfold Block.pairs
  refine .append (.append (tableItem_typed _ _ _ _ (by cases wh <;> decide +kernel) h)
    (.flatMap fun e hm => wholeEntity_typed v wh e (he e hm))) ?_
  unfold Block.endPairs
  exact .append (.append (.append (.cons (typed_str (by decide) _)
    (emitAll_typed _ v _ (by cases wh <;> decide +kernel))) (ext_typed v h))
    (emitAll_typed _ v _ (by decide +kernel))) (xdata_typed _ _)

/-! ### Objects -/

theorem object_cmds_typed (k : OName) :
    (GCmd.typed (objectHead k.kind.spec) && GCmd.typed (objectCmds k.kind.spec) &&
      GCmd.typed k.kind.cmds && GCmd.typed k.kind.cmds2 && GCmd.typed k.kind.cmds3) = true := by
  cases k <;> decide +kernel

theorem dataValue_typed (x : DataTableValue) : Typed x.pairs := by
  cases x <;> unfold DataTableValue.pairs
  · exact .cons (typed_i16 (by decide) _) .nil
  · exact .cons (typed_i32 (by decide) _) .nil
  · exact .cons (typed_f64 (by decide) _) .nil
  · exact .cons (typed_str (by decide) _) .nil
  · exact .cons (typed_f64 (by decide) _) (.cons (typed_f64 (by decide) _)
      (.cons (typed_f64 (by decide) _) .nil))
  · exact .cons (typed_f64 (by decide) _) (.cons (typed_f64 (by decide) _)
      (.cons (typed_f64 (by decide) _) .nil))
  · exact .cons (typed_str (by decide) _) .nil

theorem column_typed {d : DataTable} {col : Nat} {ps : List CodePair}
    (h : d.columnPairs col = .ok ps) : Typed ps := by
  unfold DataTable.columnPairs at h
  cases hc : d.cell 0 col with
  | error e => rw [hc] at h; cases h
  | ok c =>
    rw [hc] at h
    cases c with
    | none => cases h; exact .nil
    | some x =>
      simp only [bind, Except.bind] at h
      cases hn : d.columnNames[col]? with
      | none => rw [hn] at h; cases h
      | some name =>
        rw [hn] at h
        simp only at h
        cases hm : (List.range d.rowCount).mapM fun row => d.cell row col with
        | error e => rw [hm] at h; cases h
        | ok cells =>
          rw [hm] at h
          cases h
          refine .cons (typed_i32 (by decide) _)
            (.cons (typed_str (by decide) _) (.flatMap fun c _ => ?_))
          cases c with
          | none => exact .nil
          | some v => exact dataValue_typed v

theorem tail_typed {o : Object} {ps : List CodePair} (h : o.tail = .ok ps)
    (hx : Typed o.extra.pairs) : Typed ps := by
  unfold Object.tail at h
  split at h
  · cases h
    refine .flatMap fun x _ => .cons (typed_str (by decide) _) (.cons (typed_str ?_ _) .nil)
    cases hardOwner _ <;> decide
  · cases h
    exact .flatMap fun x _ => .cons (typed_str (by decide) _) (.cons (typed_str (by decide) _) .nil)
  · rename_i x
    unfold DataTable.pairs at h
    cases hm : (List.range x.table.columnCount).mapM x.table.columnPairs with
    | error e => rw [hm] at h; cases h
    | ok cols =>
      rw [hm] at h
      cases h
      refine .cons (typed_i32 (by decide) _) (.cons (typed_i32 (by decide) _) (.cons (typed_str (by decide) _) ?_))
      intro p hp
      obtain ⟨l, hl, hp⟩ := List.mem_flatten.mp hp
      obtain ⟨c, _, hc⟩ := mapM_ok hm l hl
      exact column_typed hc p hp
  · cases h
    refine .cons (typed_i32 (by decide) _) (.append (.flatMap fun x _ => ?_) (.cons (typed_i32 (by decide) _)
      (.flatMap fun x _ => ?_)))
    · exact .cons (typed_f64 (by decide) _) (.cons (typed_f64 (by decide) _) (.cons (typed_f64 (by decide) _)
        (.cons (typed_f64 (by decide) _) .nil)))
    · exact .cons (typed_i32 (by decide) _) (.cons (typed_i32 (by decide) _) (.cons (typed_i32 (by decide) _) .nil))
  · cases h
    exact .cons (typed_i32 (by decide) _) (.flatMap fun x _ => .cons (typed_str (by decide) _)
      (.cons (typed_str (by decide) _) .nil))
  · cases h
    exact .cons (typed_i16 (by decide) _) (.flatMap fun x _ => .cons (typed_f64 (by decide) _)
      (.cons (typed_i16 (by decide) _) (.cons (typed_str (by decide) _) .nil)))
  · cases h
    refine .cons (typed_i32 (by decide) _) (.flatMap fun x _ => ?_)
    unfold SectionType.pairs
    refine .append (.append (.append (.append ?_ (.map fun _ _ => typed_str (by decide) _)) ?_)
      (.flatMap fun g _ => ?_)) (.cons (typed_str (by decide) _) .nil)
    · exact .cons (typed_str (by decide) _) (.cons (typed_i32 (by decide) _) (.cons (typed_i32 (by decide) _)
        (.cons (typed_i32 (by decide) _) .nil)))
    · exact .cons (typed_str (by decide) _) (.cons (typed_str (by decide) _) (.cons (typed_i32 (by decide) _)
        (.cons (typed_str (by decide) _) .nil)))
    · exact .append (emitAll_typed _ _ _ (by decide +kernel)) (.cons (typed_str (by decide) _) .nil)
  · cases h
    exact .map fun _ _ => typed_f64 (by decide) _
  · cases h
    exact .flatMap fun c _ => emitAll_typed _ _ _ (by decide +kernel)
  · cases h
    exact hx
  · cases h
    exact .nil

theorem mid_typed (k : OName) (x : OExtra) : Typed (k.mid x) := by
  unfold OName.mid
  split
  · exact .cons (typed_i16 (by decide) _) (.flatMap fun x _ => .cons (typed_f64 (by decide) _)
      (.cons (typed_f64 (by decide) _) (.cons (typed_f64 (by decide) _) .nil)))
  · exact .cons (typed_i32 (by decide) _) (.map fun x _ => typed_i32 (by decide) _)
  · exact .nil

theorem mid2_typed (k : OName) (x : OExtra) (h : k = .sunStudy → x.hours = []) :
    Typed (k.mid2 x) := by
  unfold OName.mid2
  split
  · rw [h rfl]
    exact .cons (typed_i16 (by decide) _) .nil
  · exact .nil

theorem object_typed {v : Version} {o : Object} {ps : List CodePair} (h : o.pairs v = .ok ps)
    (hg : Typed (o.entry.ext.flatMap ExtGroup.held)) (hx : Typed o.extra.pairs)
    (hs : o.kind = .sunStudy → o.extra.hours = []) : Typed ps := by
  have hz := object_cmds_typed o.kind
  simp only [Bool.and_eq_true] at hz
  obtain ⟨⟨⟨⟨h1, h2⟩, h3⟩, h4⟩, h5⟩ := hz
  unfold Object.pairs at h
  split at h
  · cases ht : o.tail with
    | error e => rw [ht] at h; cases h
    | ok tail =>
      rw [ht] at h
      cases h
      refine .append (.append ?_ (tail_typed ht hx)) (xdata_typed _ _)
      unfold Object.front
      refine .append (.append (.append (.append (.append (.append (.cons
        (typed_str (by decide) _) (emitAll_typed _ v _ h1)) (ext_typed v hg))
        (emitAll_typed _ v _ ?_)) (mid_typed _ _)) (emitAll_typed _ v _ h4)) (mid2_typed _ _ hs))
        (emitAll_typed _ v _ h5)
      unfold GCmd.typed at h2 h3 ⊢
      rw [List.all_append, h2, h3]
      rfl
  · cases h
    exact .nil

/-! ### The thumbnail and the file -/

namespace Drawing

variable {Img : Type}

theorem thumbnail_typed {codec : ImageCodec Img} {img : Img} {ps : List CodePair}
    (h : Thumbnail.pairs codec img = .ok ps) : Typed ps := by
  unfold Thumbnail.pairs at h
  cases hb : codec.toBmp img with
  | error e => rw [hb] at h; cases h
  | ok data =>
    rw [hb] at h
    change (if data.length < 14 then _ else _) = _ at h
    split at h
    · cases h
    · cases h
      refine .append (.append ?_ (.map fun _ _ => ?_)) (.cons (typed_str (by decide) _) .nil)
      · exact .cons (typed_str (by decide) _) (.cons (typed_str (by decide) _)
          (.cons (typed_i32 (by decide) _) .nil))
      · exact (show ExpectedType.new 310 = some .binary by decide)

theorem section_typed {name : Str} {body : List CodePair} (h : Typed body) :
    Typed (inSection name body) :=
  .append (.cons (typed_str (by decide) _) (.cons (typed_str (by decide) _) h))
    (.cons (typed_str (by decide) _) .nil)

end Drawing

end Dxf
