import Verif.Lemmas.PartsItems

/-! The sections and tables of a file in parts. -/

namespace Dxf

/-! ### The ends of lists -/

theorem readAll_end (v : Version) {cl : CodePair} (hcl : cl.code = 0 ∧ cl.value = .str str!"ENDSEC")
    (y : List CodePair) (k : Nat) (cs : List Class) :
    classesFrom v (k + 1) cs (toStream (cl :: y)) = (.ok cs, toStream (cl :: y)) := by
  have : Class.readAll v (k + 1) (toStream (cl :: y)) = (.ok [], toStream (cl :: y)) := by
    unfold Class.readAll
    refine (Rd.bind_ok (next_comments [] (by simp) cl (by omega) _)).trans ?_
    rw [if_pos hcl.1]
    refine (Rd.bind_ok (m := Rd.lift cl.assertString) (a := str!"ENDSEC") (s := _) (s' := _)
      (by unfold CodePair.assertString; rw [hcl.2]; rfl)).trans ?_
    rw [if_pos rfl]
    rfl
  unfold classesFrom
  rw [Rd.bind_ok this, List.append_nil]
  rfl

theorem entries_end (K : TableKind) (hK : K.typeString ≠ str!"ENDTAB") {cl : CodePair}
    (hcl : cl.code = 0 ∧ cl.value = .str str!"ENDTAB") (y : List CodePair) (k : Nat)
    (xs : List (TableItem K)) :
    entriesFrom K (k + 1) xs (toStream (cl :: y)) = (.ok xs, toStream (cl :: y)) := by
  have : K.read (k + 1) (toStream (cl :: y)) = (.ok [], toStream (cl :: y)) := by
    unfold TableKind.read
    refine (Rd.bind_ok (next_comments [] (by simp) cl (by omega) _)).trans ?_
    rw [if_pos hcl.1]
    refine (Rd.bind_ok (m := Rd.lift cl.assertString) (a := str!"ENDTAB") (s := _) (s' := _)
      (by unfold CodePair.assertString; rw [hcl.2]; rfl)).trans ?_
    rw [if_pos hK.symm]
    rfl
  unfold entriesFrom
  rw [Rd.bind_ok this, List.append_nil]
  rfl

/-- The loop over the objects, with the objects before it. -/
def objectsFrom (k : Nat) (xs : List Object) : Rd (List Object) := do
  let rest ← collectObjects k
  return xs ++ rest

theorem oneObject_loop (k : Nat) (xs : List Object) (s : Stream) (xs1 : List Object) (t : Stream)
    (h : oneObject xs s = (.ok xs1, t)) : objectsFrom (k + 1) xs s = objectsFrom k xs1 t := by
  obtain ⟨x, h1, rfl⟩ := oneMore_inv h
  unfold objectsFrom
  conv => lhs; unfold collectObjects
  rw [Rd.run_bind, Rd.bind_ok h1]
  dsimp only
  rw [Rd.run_bind]
  conv => rhs; rw [Rd.run_bind]
  rcases collectObjects k t with ⟨e | r, t3⟩
  · rfl
  · change (Except.ok (xs ++ x :: r), t3) = (Except.ok ((xs ++ [x]) ++ r), t3)
    rw [List.append_assoc]
    rfl

theorem objectsFrom_nil : (Rd.withFuel fun k => objectsFrom k []) = readObjects := by
  funext s
  unfold readObjects
  rw [Rd.run_withFuel, Rd.run_withFuel]
  unfold objectsFrom
  rw [Rd.run_bind]
  rcases collectObjects (s.length + 1) s with ⟨e | r, t3⟩ <;> rfl

theorem objects_end {cl : CodePair} (hcl : cl.code = 0 ∧ cl.value = .str str!"ENDSEC")
    (y : List CodePair) (k : Nat) (xs : List Object) :
    objectsFrom (k + 1) xs (toStream (cl :: y)) = (.ok xs, toStream (cl :: y)) := by
  have : collectObjects (k + 1) (toStream (cl :: y)) = (.ok [], toStream (cl :: y)) := by
    unfold collectObjects
    exact Rd.bind_ok (nextObject_endsec hcl _)
  unfold objectsFrom
  rw [Rd.bind_ok this, List.append_nil]
  rfl

/-! ### Reading up to the end -/

theorem classes_run (v : Version) {cs : List Class} {b e : List CodePair} {cl : CodePair}
    (hcl : cl.code = 0 ∧ cl.value = .str str!"ENDSEC")
    (h : Steps (oneClass v) [] (toStream (b ++ cl :: e)) cs (toStream (cl :: e))) :
    Rd.withFuel (Class.readAll v) (toStream (b ++ cl :: e)) = (.ok cs, toStream (cl :: e)) := by
  rw [← classesFrom_nil]
  exact Steps.ends (oneClass_passes v) (oneClass_loop v) hcl.1 h fun k => readAll_end v hcl _ k _

theorem objects_run {xs : List Object} {b e : List CodePair} {cl : CodePair}
    (hcl : cl.code = 0 ∧ cl.value = .str str!"ENDSEC")
    (h : Steps oneObject [] (toStream (b ++ cl :: e)) xs (toStream (cl :: e))) :
    readObjects (toStream (b ++ cl :: e)) = (.ok xs, toStream (cl :: e)) := by
  rw [← objectsFrom_nil]
  exact Steps.ends oneObject_passes oneObject_loop hcl.1 h fun k => objects_end hcl _ k _

theorem entries_run (K : TableKind) (hK : K.typeString ≠ str!"ENDTAB") {xs : List (TableItem K)}
    {b e : List CodePair} {cl : CodePair} (hcl : cl.code = 0 ∧ cl.value = .str str!"ENDTAB")
    (h : Steps (oneEntry K) [] (toStream (b ++ cl :: e)) xs (toStream (cl :: e))) :
    Rd.withFuel K.read (toStream (b ++ cl :: e)) = (.ok xs, toStream (cl :: e)) := by
  rw [← entriesFrom_nil]
  exact Steps.ends (oneEntry_passes K) (oneEntry_loop K) hcl.1 h fun k => entries_end K hK hcl _ k _

/-- Both parts together. -/
theorem parts_whole {α : Type} {g : List α → Rd (List α)} (hg : Adds g) {xs ys : List α}
    {b c e : List CodePair} {cl : CodePair}
    (h1 : Steps g [] (toStream (b ++ (c ++ cl :: e))) xs (toStream (c ++ cl :: e)))
    (h2 : Steps g [] (toStream (c ++ cl :: e)) ys (toStream (cl :: e))) :
    Steps g [] (toStream ((b ++ c) ++ cl :: e)) (xs ++ ys) (toStream (cl :: e)) := by
  rw [List.append_assoc]
  exact h1.trans (Steps.from hg h2 xs)

/-- The first part with an end behind it. -/
theorem part_first {α : Type} {g : List α → Rd (List α)} (hg : Passes (· = 0) g) {xs : List α}
    {b c e : List CodePair} {cl cl' op nm : CodePair} (hcl : cl.code = 0) (hcl' : cl'.code = 0)
    (hc : ∀ q ∈ c.head?, q.code = 0)
    (h1 : Steps g [] (toStream (b ++ (c ++ cl :: e))) xs (toStream (c ++ cl :: e))) :
    Steps g [] (toStream (b ++ cl' :: op :: nm :: (c ++ cl :: e))) xs
      (toStream (cl' :: op :: nm :: (c ++ cl :: e))) := by
  obtain ⟨q, z, hz, hq⟩ := part_head (e := e) hcl hc
  rw [hz] at h1 ⊢
  exact Steps.move hg hq hcl' (by simp; omega) h1

namespace Drawing

variable {Img : Type} {codec : ImageCodec Img} {h0 : Header} {order : List Str}

/-- Sections whose content is a list that is added to the drawing. -/
theorem list_parts {α : Type} {name : Str} {R : Drawing Img → Rd (List α)}
    {F : Drawing Img → List α → Except DxfErr (Drawing Img)}
    (hr : ∀ d, readSection codec h0 name d = R d >>= fun xs => Rd.lift (F d xs))
    {a b c e : List CodePair} {cl cl' op nm : CodePair} {d : Drawing Img} {xs ys : List α}
    (hF : F d (xs ++ ys) = F d xs >>= fun d1 => F d1 ys)
    (h : InSection codec h0 order name a (b ++ (c ++ cl :: e)) d) (hm : BetweenParts name cl' op nm)
    (h1 : R d (toStream (b ++ cl' :: op :: nm :: (c ++ cl :: e))) =
      (.ok xs, toStream (cl' :: op :: nm :: (c ++ cl :: e))))
    (h2 : ∀ d1, F d xs = .ok d1 → R d1 (toStream (c ++ cl :: e)) = (.ok ys, toStream (cl :: e)))
    (h3 : R d (toStream (b ++ (c ++ cl :: e))) = (.ok (xs ++ ys), toStream (cl :: e))) :
    Same (load codec h0 order) (toStream (a ++ (b ++ (c ++ cl :: e))))
      (toStream (a ++ (b ++ cl' :: op :: nm :: (c ++ cl :: e)))) := by
  refine parts_load h hm (by simp) ?_
  simp only [hr]
  rw [Rd.bind_ok h1, Rd.bind_ok h3, hF]
  cases hx : F d xs with
  | error er => exact .inr ⟨er, rfl, rfl⟩
  | ok d1 =>
    refine .inl ⟨d1, rfl, ?_⟩
    rw [Rd.bind_ok (h2 d1 hx)]
    exact .refl

theorem tables_parts {a b c e : List CodePair} {cl cl' op nm : CodePair} {d d1 d2 : Drawing Img}
    (h : InSection codec h0 order str!"TABLES" a (b ++ (c ++ cl :: e)) d)
    (hm : BetweenParts str!"TABLES" cl' op nm) (hcl : cl.code = 0 ∧ cl.value = .str str!"ENDSEC")
    (hc : ∀ q ∈ c.head?, q.code = 0)
    (h1 : Steps wholeTable d (toStream (b ++ (c ++ cl :: e))) d1 (toStream (c ++ cl :: e)))
    (h2 : Steps wholeTable d1 (toStream (c ++ cl :: e)) d2 (toStream (cl :: e))) :
    Same (load codec h0 order) (toStream (a ++ (b ++ (c ++ cl :: e))))
      (toStream (a ++ (b ++ cl' :: op :: nm :: (c ++ cl :: e)))) :=
  items_parts (C := AnyCode) trivial wholeTable_passes (by decide) (fun d => by
    unfold readSection
    rw [if_neg (by decide), if_neg (by decide), if_pos rfl]) h hm hcl hc h1 h2

theorem blocks_parts {a b c e : List CodePair} {cl cl' op nm : CodePair} {d d1 d2 : Drawing Img}
    (h : InSection codec h0 order str!"BLOCKS" a (b ++ (c ++ cl :: e)) d)
    (hm : BetweenParts str!"BLOCKS" cl' op nm) (hcl : cl.code = 0 ∧ cl.value = .str str!"ENDSEC")
    (hc : ∀ q ∈ c.head?, q.code = 0)
    (h1 : Steps wholeBlock d (toStream (b ++ (c ++ cl :: e))) d1 (toStream (c ++ cl :: e)))
    (h2 : Steps wholeBlock d1 (toStream (c ++ cl :: e)) d2 (toStream (cl :: e))) :
    Same (load codec h0 order) (toStream (a ++ (b ++ (c ++ cl :: e))))
      (toStream (a ++ (b ++ cl' :: op :: nm :: (c ++ cl :: e)))) :=
  items_parts (C := (· = 0)) rfl wholeBlock_passes (by decide) (fun d => by
    unfold readSection
    rw [if_neg (by decide), if_neg (by decide), if_neg (by decide), if_pos rfl]) h hm hcl hc h1 h2

theorem classes_parts {a b c e : List CodePair} {cl cl' op nm : CodePair} {d : Drawing Img}
    {xs ys : List Class}
    (h : InSection codec h0 order str!"CLASSES" a (b ++ (c ++ cl :: e)) d)
    (hm : BetweenParts str!"CLASSES" cl' op nm) (hcl : cl.code = 0 ∧ cl.value = .str str!"ENDSEC")
    (hc : ∀ q ∈ c.head?, q.code = 0)
    (h1 : Steps (oneClass d.version) [] (toStream (b ++ (c ++ cl :: e))) xs (toStream (c ++ cl :: e)))
    (h2 : Steps (oneClass d.version) [] (toStream (c ++ cl :: e)) ys (toStream (cl :: e))) :
    Same (load codec h0 order) (toStream (a ++ (b ++ (c ++ cl :: e))))
      (toStream (a ++ (b ++ cl' :: op :: nm :: (c ++ cl :: e)))) := by
  refine list_parts (R := fun d => Rd.withFuel (Class.readAll d.version))
    (F := fun d cs => .ok { d with classes := d.classes ++ cs }) (xs := xs) (ys := ys) (fun d => ?_)
    ?_ h hm ?_ ?_ ?_
  · unfold readSection
    rw [if_neg (by decide), if_pos rfl]
    rfl
  · change Except.ok _ = Except.ok _
    rw [← List.append_assoc]
  · exact classes_run _ hm.cl (part_first (oneClass_passes _) hcl.1 hm.cl.1 hc h1)
  · intro d1 hd
    obtain rfl := (Except.ok.inj hd).symm
    exact classes_run _ hcl h2
  · have := classes_run _ hcl (parts_whole (oneClass_adds _) h1 h2)
    rwa [List.append_assoc] at this

theorem objects_parts {a b c e : List CodePair} {cl cl' op nm : CodePair} {d : Drawing Img}
    {xs ys : List Object}
    (h : InSection codec h0 order str!"OBJECTS" a (b ++ (c ++ cl :: e)) d)
    (hm : BetweenParts str!"OBJECTS" cl' op nm) (hcl : cl.code = 0 ∧ cl.value = .str str!"ENDSEC")
    (hc : ∀ q ∈ c.head?, q.code = 0)
    (h1 : Steps oneObject [] (toStream (b ++ (c ++ cl :: e))) xs (toStream (c ++ cl :: e)))
    (h2 : Steps oneObject [] (toStream (c ++ cl :: e)) ys (toStream (cl :: e))) :
    Same (load codec h0 order) (toStream (a ++ (b ++ (c ++ cl :: e))))
      (toStream (a ++ (b ++ cl' :: op :: nm :: (c ++ cl :: e)))) := by
  refine list_parts (R := fun _ => readObjects)
    (F := fun d os => os.foldlM addReadObject d) (xs := xs) (ys := ys) (fun d => ?_)
    (List.foldlM_append) h hm ?_ ?_ ?_
  · unfold readSection
    rw [if_neg (by decide), if_neg (by decide), if_neg (by decide), if_neg (by decide),
      if_neg (by decide), if_pos rfl]
    rfl
  · exact objects_run hm.cl (part_first oneObject_passes hcl.1 hm.cl.1 hc h1)
  · exact fun _ _ => objects_run hcl h2
  · have := objects_run hcl (parts_whole (oneMore_adds _) h1 h2)
    rwa [List.append_assoc] at this

theorem entities_parts {a b c e : List CodePair} {cl cl' op nm : CodePair} {d : Drawing Img}
    {xs ys : List Flat}
    (h : InSection codec h0 order str!"ENTITIES" a (b ++ (c ++ cl :: e)) d)
    (hm : BetweenParts str!"ENTITIES" cl' op nm) (hcl : cl.code = 0 ∧ cl.value = .str str!"ENDSEC")
    (hc : ∀ q ∈ c.head?, q.code = 0)
    (h1 : Steps oneEntity [] (toStream (b ++ (c ++ cl :: e))) xs (toStream (c ++ cl :: e)))
    (h2 : Steps oneEntity [] (toStream (c ++ cl :: e)) ys (toStream (cl :: e)))
    (hs : Separate xs ys) :
    Same (load codec h0 order) (toStream (a ++ (b ++ (c ++ cl :: e))))
      (toStream (a ++ (b ++ cl' :: op :: nm :: (c ++ cl :: e)))) := by
  obtain ⟨n1, hn1, r1⟩ := readEntities_run hm.cl
    (part_first (op := op) (nm := nm) oneEntity_passes hcl.1 hm.cl.1 hc h1)
  obtain ⟨n2, hn2, r2⟩ := readEntities_run hcl h2
  obtain ⟨n3, hn3, r3⟩ := readEntities_run hcl (parts_whole (oneMore_adds _) h1 h2)
  rw [collect_append n3 n2 xs hs hn3 hn2,
    collect_more n3 n1 xs (by simp only [List.length_append] at hn3; omega) hn1,
    List.append_assoc] at r3
  refine list_parts (R := fun _ => readEntities)
    (F := fun d es => es.foldlM addReadEntity d) (fun d => ?_)
    (List.foldlM_append) h hm r1 (fun _ _ => r2) r3
  unfold readSection
  rw [if_neg (by decide), if_neg (by decide), if_neg (by decide), if_neg (by decide),
    if_pos rfl]
  rfl

/-! ### Tables in parts -/

/-- The end of a table. -/
def tableEnd (x : Except DxfErr (Drawing Img)) : Rd (Drawing Img) := do
  let d ← Rd.lift x
  expect str!"ENDTAB"
  return d

theorem readTable_run (d : Drawing Img) {nm cl : CodePair} {x : Str} {t : TName}
    (hnm : nm.code = 2 ∧ nm.value = .str x) (hx : tableOf x = some t)
    (hcl : cl.code = 0 ∧ cl.value = .str str!"ENDTAB") {y : Stream} {e : List CodePair}
    {items : List (TableItem t.kind)}
    (h : Rd.withFuel t.kind.read y = (.ok items, toStream (cl :: e))) :
    ∀ f : Drawing Img → Rd (Drawing Img), (d.readTable >>= f) (some (.ok nm) :: y) =
      (tableEnd (items.foldlM (addRead t) d) >>= f) (toStream (cl :: e)) := by
  intro f
  rw [Rd.run_bind, Rd.run_bind]
  suffices d.readTable (some (.ok nm) :: y) =
    tableEnd (items.foldlM (addRead t) d) (toStream (cl :: e)) by rw [this]
  unfold readTable
  refine (Rd.bind_ok (Rd.next_cons (by omega) y)).trans ?_
  rw [if_neg (by simp [hnm.1])]
  refine (Rd.bind_ok (m := Rd.lift nm.assertString) (a := x) (s := y) (s' := y)
    (by unfold CodePair.assertString; rw [hnm.2]; rfl)).trans ?_
  simp only [hx]
  exact Rd.bind_ok h

theorem expect_endtab {cl : CodePair} (hcl : cl.code = 0 ∧ cl.value = .str str!"ENDTAB")
    (e : List CodePair) : expect str!"ENDTAB" (toStream (cl :: e)) = (.ok (), toStream e) :=
  expect_run _ [] (by simp) cl hcl.1 hcl.2 _

theorem inTable_parts {t : TName} {a b c e : List CodePair} {cl cl' op nm : CodePair}
    {xs ys : List (TableItem t.kind)} (h : InTable codec h0 order t a (b ++ (c ++ cl :: e)))
    (hm : BetweenTables t.kind.typeString cl' op nm)
    (hcl : cl.code = 0 ∧ cl.value = .str str!"ENDTAB") (hc : ∀ q ∈ c.head?, q.code = 0)
    (h1 : Steps (oneEntry t.kind) [] (toStream (b ++ (c ++ cl :: e))) xs (toStream (c ++ cl :: e)))
    (h2 : Steps (oneEntry t.kind) [] (toStream (c ++ cl :: e)) ys (toStream (cl :: e))) :
    Same (load codec h0 order) (toStream (a ++ (b ++ (c ++ cl :: e))))
      (toStream (a ++ (b ++ cl' :: op :: nm :: (c ++ cl :: e)))) := by
  have hK : t.kind.typeString ≠ str!"ENDTAB" := by
    clear h hm h1 h2 xs ys
    cases t <;> decide +kernel
  have hx : tableOf t.kind.typeString = some t := by
    clear h hm h1 h2 xs ys hK
    cases t <;> decide +kernel
  have r1 := entries_run t.kind hK hm.cl
    (part_first (op := op) (nm := nm) (oneEntry_passes t.kind) hcl.1 hm.cl.1 hc h1)
  have r2 := entries_run t.kind hK hcl h2
  have r3 := entries_run t.kind hK hcl (parts_whole (oneEntry_adds _) h1 h2)
  rw [List.append_assoc] at r3
  generalize hb : b ++ (c ++ cl :: e) = w at h r3
  generalize hb' : b ++ cl' :: op :: nm :: (c ++ cl :: e) = w' at r1 ⊢
  have hlen : w'.length = w.length + 3 := by
    rw [← hb, ← hb']; simp only [List.length_append, List.length_cons]; omega
  obtain ⟨a, c0, op0, nm0, w, d, d', hop, hnm, h, hst⟩ := h
  have e1 : ∀ y, a ++ c0 ++ [op0, nm0] ++ y = a ++ (c0 ++ op0 :: nm0 :: y) := by simp
  rw [e1, e1]
  refine inSection_same h (by simp only [List.length_append, List.length_cons]; omega) ?_
  have e2 : ∀ y, toStream (c0 ++ op0 :: nm0 :: y) =
    toStream c0 ++ some (.ok op0) :: some (.ok nm0) :: toStream y := by intro y; simp [toStream]
  have hf := fine_toStream (c0 ++ op0 :: nm0 :: w)
  rw [e2] at hf ⊢ hst
  rw [e2]
  unfold readSection
  rw [if_neg (by decide), if_neg (by decide), if_pos rfl]
  refine Steps.same wholeTable_passes (f := readItems str!"TABLE" readTable)
    (wholeItem_loop (Img := Img) str!"TABLE" (by decide) readTable) (q := op0) (q' := op0) trivial
    trivial (by simp only [List.length_cons, toStream_length]; omega) hst hf fun k hcalm => ?_
  rw [show (some (.ok nm0) :: toStream w' : Stream).length -
    (some (Except.ok nm0) :: toStream w : Stream).length = 3 by
      simp only [List.length_cons, toStream_length]; omega]
  have o1 := readItems_open str!"TABLE" (by decide) readTable k d' [] (by simp) op0 hop
    (some (.ok nm0) :: toStream w)
  have o2 := readItems_open str!"TABLE" (by decide) readTable (k + 3) d' [] (by simp) op0 hop
    (some (.ok nm0) :: toStream w')
  simp only [toStream_nil, List.nil_append] at o1 o2
  rw [o1] at hcalm ⊢
  rw [show k + 1 + 3 = k + 3 + 1 by omega, o2]
  rw [readTable_run d' hnm hx hcl r3, List.foldlM_append] at hcalm ⊢
  rw [readTable_run d' hnm hx hm.cl r1]
  cases hx1 : List.foldlM (addRead t) d' xs with
  | error er => exact ⟨rfl, fun a ha => nomatch ha⟩
  | ok d1 =>
    rw [hx1] at hcalm
    have e3 : tableEnd (.ok d1) (toStream (cl' :: op :: nm :: (c ++ cl :: e))) =
        (.ok d1, toStream (op :: nm :: (c ++ cl :: e))) :=
      Rd.bind_ok (expect_endtab hm.cl _)
    rw [Rd.bind_ok e3]
    have o3 := readItems_open str!"TABLE" (by decide) readTable (k + 2) d1 [] (by simp) op hm.op
      (some (.ok nm) :: toStream (c ++ cl :: e))
    simp only [toStream_nil, List.nil_append] at o3
    rw [show toStream (op :: nm :: (c ++ cl :: e)) =
      some (.ok op) :: some (.ok nm) :: toStream (c ++ cl :: e) from rfl,
      show k + 3 = k + 2 + 1 by omega, o3, readTable_run d1 hm.nm hx hcl r2]
    have hb : Below (tableEnd (ys.foldlM (addRead t) d1) >>= readItems str!"TABLE" readTable k)
        (tableEnd (ys.foldlM (addRead t) d1) >>= readItems str!"TABLE" readTable (k + 2)) :=
      .bind .rfl fun a => (readItems_mono str!"TABLE" readTable a).le (Nat.le_add_right k 2)
    rw [hb _ hcalm]
    exact .refl

end Drawing

end Dxf
