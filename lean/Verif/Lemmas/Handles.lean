import Verif.Spec.Handles
import Verif.Lemmas.Change

/-! Handles in the pairs of items. -/

namespace Dxf

variable {Img : Type}

set_option maxRecDepth 20000 in
theorem dimension_unmoved (v : Version) (n : Nat) (r : Rec EName.dimension.decls) (h : Handle) :
    emitAll (EName.dimension.kind.cmds n) v (r.set 0 h) =
      emitAll (EName.dimension.kind.cmds n) v r := by
  match n with
  | 0 => rfl
  | 1 => rfl
  | 2 => rfl
  | 3 => rfl
  | 4 => rfl
  | 5 => rfl
  | 6 => rfl
  | _ + 7 => rfl

set_option maxRecDepth 20000 in
/-- No statement but the first one of all entities writes the handle. -/
theorem entity_unmoved (v : Version) (k : EName) (n : Nat) (r : Rec k.decls) (h : Handle) :
    emitAll (k.kind.cmds n) v (Rec.set (ds := k.decls) r 0 h) = emitAll (k.kind.cmds n) v r := by
  cases k
  all_goals first | rfl | exact dimension_unmoved v n r h

theorem emit_append {ds : List Decl} (a b : List (GCmd ds)) (v : Version) (r : Rec ds) :
    emitAll (a ++ b) v r = emitAll a v r ++ emitAll b v r := List.flatMap_append

theorem front_unmoved (v : Version) (k : EName) (n : Nat) (r : Rec k.decls)
    (ext : List ExtGroup) (xdata xdata' : List XData) (h : Handle) :
    k.front n v false ⟨Rec.set (ds := k.decls) r 0 h, ext, xdata⟩ = k.front n v false ⟨r, ext, xdata'⟩ := by
  unfold EName.front
  simp only [emit_append, entity_unmoved]
  rfl

theorem pairs_unmoved (v : Version) (k : EName) (n : Nat) (x : Entry k.decls) (h : Handle)
    (post : List CodePair) :
    k.pairs n v false { x with fields := Rec.set (ds := k.decls) x.fields 0 h } post =
      k.pairs n v false x post := by
  unfold EName.pairs
  rw [front_unmoved v k n x.fields x.ext x.xdata x.xdata h]

theorem mtext_unmoved {v : Version} (hv : ¬ .r13 ≤ v) (wh : Bool) (c : Rec commonDecls) (m : MTextRec) :
    mTextPairs v wh c m = [] := by
  unfold mTextPairs EName.pairs
  rw [if_neg]
  revert hv
  cases v <;> decide

theorem att_unmoved {v : Version} (hv : ¬ .r13 ≤ v) (a : Att) (h : Handle) :
    Att.pairs v false { a with handle := h } = Att.pairs v false a := by
  unfold Att.pairs
  simp only [mtext_unmoved hv]
  unfold Rec.child
  exact (pairs_unmoved v .attribute 0 ⟨Rec.bare a.fields, [], []⟩ h []).trans
    (pairs_unmoved v .attribute 0 ⟨Rec.bare a.fields, [], []⟩ a.handle []).symm

theorem vert_unmoved (v : Version) (f : I32) (a : Vert) (h : Handle) :
    Vert.pairs v false f { a with handle := h } = Vert.pairs v false f a := by
  unfold Vert.pairs
  unfold Rec.child
  exact (pairs_unmoved v .vertex 0 ⟨Rec.bare (Vert.adjust f a.fields), [], []⟩ h []).trans
    (pairs_unmoved v .vertex 0 ⟨Rec.bare (Vert.adjust f a.fields), [], []⟩ a.handle []).symm

theorem atts_unmoved {v : Version} (hv : ¬ .r13 ≤ v) (l : List Att) :
    l.flatMap (Att.pairs v false) =
      (l.map fun a => { a with handle := 0#64 }).flatMap (Att.pairs v false) := by
  rw [List.flatMap_map]
  exact List.flatMap_congr fun a _ => (att_unmoved hv a _).symm

theorem verts_unmoved (v : Version) (f : I32) (l : List Vert) :
    l.flatMap (Vert.pairs v false f) =
      (l.map fun a => { a with handle := 0#64 }).flatMap (Vert.pairs v false f) := by
  rw [List.flatMap_map]
  exact List.flatMap_congr fun a _ => (vert_unmoved v f a _).symm

theorem Entity.pairs_alike {v : Version} (hv : ¬ .r13 ≤ v) {e e' : Entity} (h : e.Alike e') :
    e'.pairs v false = e.pairs v false := by
  obtain ⟨⟨hd, hf⟩, hu⟩ := h
  obtain ⟨⟨k, s, x⟩, ex⟩ := e
  obtain ⟨f', ex'⟩ := e'
  change f' = _ at hf
  subst hf
  change ex'.unhandled = ex.unhandled at hu
  have ha : ex'.atts.map (fun a => { a with handle := 0#64 }) =
      ex.atts.map fun a => { a with handle := 0#64 } := congrArg Extra.atts hu
  have hw : ex'.verts.map (fun a => { a with handle := 0#64 }) =
      ex.verts.map fun a => { a with handle := 0#64 } := congrArg Extra.verts hu
  have he : ex'.atts.isEmpty = ex.atts.isEmpty := by
    have := congrArg List.isEmpty ha
    simpa using this
  have hn : Entity.num ⟨(Entity.setHandle ⟨⟨k, s, x⟩, ex⟩ hd).toFlat, ex'⟩ =
      Entity.num ⟨⟨k, s, x⟩, ex⟩ := by
    unfold Entity.num
    cases k <;> first | rfl | exact congrArg (fun b => bif b then 0 else 1) he
  have hp : Entity.post v false ⟨(Entity.setHandle ⟨⟨k, s, x⟩, ex⟩ hd).toFlat, ex'⟩ =
      Entity.post v false ⟨⟨k, s, x⟩, ex⟩ := by
    unfold Entity.setHandle Entity.post
    cases k
    case «attribute» => exact (mtext_unmoved hv _ _ _).trans (mtext_unmoved hv _ _ _).symm
    case attributeDefinition => exact (mtext_unmoved hv _ _ _).trans (mtext_unmoved hv _ _ _).symm
    case insert =>
      change ex'.atts.flatMap _ ++ (bif ex'.atts.isEmpty then _ else _) =
        ex.atts.flatMap _ ++ (bif ex.atts.isEmpty then _ else _)
      rw [atts_unmoved hv, ha, ← atts_unmoved hv, he]
      rfl
    case polyline =>
      have key : ∀ f : I32, ex'.verts.flatMap (Vert.pairs v false f) ++ seqendPairs false ex'.seqend =
          ex.verts.flatMap (Vert.pairs v false f) ++ seqendPairs false ex.seqend := fun f => by
        rw [verts_unmoved, hw, ← verts_unmoved]
        rfl
      exact key _
    all_goals rfl
  unfold Entity.pairs
  rw [hn, hp]
  exact pairs_unmoved v k _ x hd _

theorem flatMap_alike {α β : Type} {R : α → α → Prop} {f : α → List β} {l l' : List α}
    (h : List.Forall₂ R l l') (hf : ∀ a b, R a b → f b = f a) : l'.flatMap f = l.flatMap f := by
  induction h with
  | nil => rfl
  | cons h1 _ ih => rw [List.flatMap_cons, List.flatMap_cons, ih, hf _ _ h1]

theorem isEmpty_alike {α : Type} {R : α → α → Prop} {l l' : List α} (h : List.Forall₂ R l l') :
    l'.isEmpty = l.isEmpty := by
  cases h <;> rfl

theorem Block.pairs_alike {v : Version} (hv : ¬ .r13 ≤ v) {b b' : Block} (h : b.Alike b') :
    b'.pairs v false = b.pairs v false := by
  obtain ⟨⟨hd, h1⟩, h2⟩ := h
  obtain ⟨x, es⟩ := b
  obtain ⟨x', es'⟩ := b'
  change x' = _ at h1
  subst h1
  unfold Block.pairs
  have h3 : Blocks.kind.itemPairs v false { (Block.setHandle ⟨x, es⟩ hd).entry with xdata := [] } =
      Blocks.kind.itemPairs v false { x with xdata := [] } := by cases v <;> rfl
  have h4 : Block.endPairs v false (Block.setHandle ⟨x, es⟩ hd).entry = Block.endPairs v false x := by
    cases v <;> rfl
  change Blocks.kind.itemPairs v false { (Block.setHandle ⟨x, es⟩ hd).entry with xdata := [] } ++
    es'.flatMap (Entity.pairs v false) ++ Block.endPairs v false (Block.setHandle ⟨x, es⟩ hd).entry = _
  rw [flatMap_alike h2 fun a b h => Entity.pairs_alike hv h, h3, h4]

theorem TName.pairs_alike (t : TName) (v : Version) (x : t.Item) (h : Handle) :
    t.kind.itemPairs v false (t.setHandle x h) = t.kind.itemPairs v false x := by
  cases t <;> rfl

end Dxf
