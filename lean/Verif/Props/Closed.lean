import Verif.Lemmas.Closed
import Verif.Model.Bytes
import Verif.Model.Io
import Verif.Props.Drawing

/-! C59: references by name lead to something, in drawings that were loaded and in drawings that
were built. -/

namespace Dxf

variable {Img : Type}

open Drawing

/-- C59, in part: adding, normalizing, clearing and removing blocks and entities keep it so that
all names that are used are names of something. -/
theorem C59_partial {d d' : Drawing Img} {op : Op} (hop : op.Spares) (hd : d.Closed)
    (h : op.run d = .ok d') : d'.Closed := by
  have key : ∀ {α : Type} {r : Except DxfErr (α × Drawing Img)}, r.map (·.2) = .ok d' →
      ∃ a, r = .ok (a, d') := by
    intro α r hr
    cases r with
    | error => cases hr
    | ok a =>
      cases hr
      exact ⟨a.1, rfl⟩
  have erased : ∀ {α : Type} (l : List α) (i : Nat) (x : α), x ∈ (removeItem l i).2 → x ∈ l := by
    intro α l i x hx
    rw [removeItem_eq] at hx
    exact List.mem_of_mem_eraseIdx hx
  cases op with
  | add t x =>
    obtain ⟨y, hy⟩ := key h
    exact (Brings.add hy).closed hd
  | addBlock b =>
    obtain ⟨y, hy⟩ := key h
    exact (Brings.addBlock hy).closed hd
  | addEntity e =>
    obtain ⟨y, hy⟩ := key h
    exact (Brings.addEntity hy).closed hd
  | addObject o =>
    obtain ⟨y, hy⟩ := key h
    exact (Brings.addObject hy).closed hd
  | remove t i => exact hop.elim
  | removeBlock i =>
    cases h
    exact ⟨hd.layers, fun b hb => hd.blocks b (erased _ _ _ hb), hd.entities, hd.objects⟩
  | removeEntity i =>
    cases h
    exact ⟨hd.layers, hd.blocks, fun b hb => hd.entities b (erased _ _ _ hb), hd.objects⟩
  | removeObject i => exact hop.elim
  | clear =>
    cases h
    exact closed_clear d
  | normalize order => exact closed_normalize h hd
  | own x =>
    obtain ⟨y, hy⟩ := key h
    unfold assignHandle at hy
    split at hy
    · exact (Brings.next hy).closed hd
    · cases hy
      exact hd

/-- The same for any history of such operations. -/
theorem C59_history {d d' : Drawing Img} {ops : List Op} (hops : ∀ op ∈ ops, op.Spares)
    (hd : d.Closed) (h : Op.runAll ops d = .ok d') : d'.Closed := by
  induction ops generalizing d with
  | nil =>
    cases h
    exact hd
  | cons op ops ih =>
    rw [Op.runAll, List.foldlM_cons] at h
    obtain ⟨d1, h1, h⟩ := bind_ok h
    exact ih (fun o ho => hops o (List.mem_cons_of_mem _ ho))
      (C59_partial (hops op List.mem_cons_self) hd h1) h

/-- A new drawing is like that. -/
theorem C59_new {h0 : Header} {order : List Str} {d : Drawing Img} (h : Drawing.new h0 order = .ok d) :
    d.Closed :=
  closed_normalize h
    ⟨(fun _ h => nomatch h), (fun _ h => nomatch h), (fun _ h => nomatch h), (fun _ h => nomatch h)⟩

/-- C59 for drawings that were built: every drawing that can be obtained from a new one by such
operations. -/
theorem C59_built {d : Drawing Img} (hd : d.ReachableBy Op.Spares) : d.Closed := by
  obtain ⟨h0, order, ops, -, hp, h⟩ := hd
  obtain ⟨d0, h1, h2⟩ := bind_ok h
  exact C59_history hp (C59_new h1) h2

/-- Such a drawing, with a text on a layer. -/
example : ∃ d : Drawing Unit, d.ReachableBy Op.Spares ∧ d.entities.length = 1 := by
  obtain ⟨d, h⟩ := C13_total (Img := Unit) (h0 := Rec.dflt _) (fun _ _ => rfl) []
    [.addEntity EName.text.plain, .clear, .addEntity EName.text.plain] (by decide +kernel)
  refine ⟨d, ⟨_, _, _, fun _ _ => rfl, fun op ho => ?_, h⟩, ?_⟩
  · simp only [List.mem_cons, List.not_mem_nil, or_false] at ho
    rcases ho with rfl | rfl | rfl <;> trivial
  · obtain ⟨d0, h1, h2⟩ := bind_ok h
    rw [Op.runAll, List.foldlM_cons] at h2
    obtain ⟨d1, h3, h2⟩ := bind_ok h2
    rw [List.foldlM_cons] at h2
    obtain ⟨d2, h4, h2⟩ := bind_ok h2
    cases h4
    rw [List.foldlM_cons] at h2
    obtain ⟨d3, h5, h2⟩ := bind_ok h2
    cases h2
    cases hr : d1.clear.addEntity EName.text.plain with
    | error e => rw [Op.run, hr] at h5; cases h5
    | ok r =>
      rw [Op.run, hr] at h5
      cases h5
      obtain ⟨hd, d4, fs, d5, d6, hn, ht, -, -, g, -, he⟩ := addEntity_ok (e' := r.1) (d' := r.2) hr
      have hl : d6.entities = [] := by
        rw [g.entities, ht.same]
        exact (grows_next hn).entities
      change r.2.entities.length = 1
      rw [he]
      change (d6.entities ++ _).length = 1
      rw [hl]
      rfl

/-- C59 for drawings that were loaded, from any code pairs, in any order of the sections, whatever
tables the file has. -/
theorem C59_loaded {codec : ImageCodec Img} {h0 : Header} {order : List Str} {s s' : Stream}
    {d : Drawing Img} (h : Drawing.load codec h0 order s = (.ok d, s')) : d.Closed := by
  unfold Drawing.load at h
  obtain ⟨d0, t1, -, h⟩ := Rd.bind_inv h
  obtain ⟨d1, t2, h1, h⟩ := Rd.bind_inv h
  rw [Rd.run_withFuel] at h1
  have hc := (Brings.readSections codec h0 _ h1).closed (closed_clear d0)
  unfold Drawing.finish at h
  obtain ⟨p, t3, -, h⟩ := Rd.bind_inv h
  cases p with
  | none =>
    cases h
    exact hc
  | some p =>
    dsimp only at h
    split at h
    · cases h
      exact hc
    · cases h

/-- C59 for DXB files. -/
theorem C59_dxb {h0 : Header} {order : List Str} {bytes : List Byte} {later : List (List Byte)}
    {d : Drawing Img} (h : Drawing.loadDxb h0 order bytes later = .ok d) : d.Closed := by
  unfold loadDxb at h
  obtain ⟨⟨found, r⟩, -, h⟩ := bind_ok h
  obtain ⟨es, -, h⟩ := bind_ok h
  obtain ⟨d0, -, h⟩ := bind_ok h
  dsimp only at h
  split at h
  · obtain ⟨⟨b, d1⟩, h1, h⟩ := bind_ok h
    cases h
    exact (Brings.addBlock h1).closed (closed_clear d0)
  · refine (Brings.foldlM (fun hf => ?_) h).closed (closed_clear d0)
    obtain ⟨⟨e, d1⟩, h1, hf⟩ := bind_ok hf
    cases hf
    exact Brings.addEntity h1

/-- C59 for files of any kind: text, binary or DXB, in any encoding. -/
theorem C59_file {codec : ImageCodec Img} {enc : Enc} {h0 : Header} {order : List Str}
    {file : List Byte} {d : Drawing Img} (h : Drawing.loadBytes codec enc h0 order file = .ok d) :
    d.Closed := by
  unfold loadBytes at h
  split at h
  · cases h
  · exact C59_dxb h
  · exact C59_loaded (Prod.ext h rfl)

/-- C59 for readers that deliver the file in any pieces, or fail. -/
theorem C59_reader {codec : ImageCodec Img} {enc : Enc} {h0 : Header} {order : List Str}
    {size : Nat → Nat} {s : Source} {d : Drawing Img}
    (h : Drawing.loadFrom codec enc h0 order size s = .ok d) : d.Closed := by
  unfold loadFrom at h
  split at h
  · cases h
  · split at h
    · exact C59_dxb h
    · obtain ⟨bytes, -, h⟩ := bind_ok h
      obtain ⟨⟨main, alt⟩, -, h⟩ := bind_ok h
      exact C59_loaded (Prod.ext h rfl)

/-- A file without tables: a line on a layer that is not defined anywhere. -/
def looseLine : List CodePair :=
  [.newStr 0 str!"SECTION", .newStr 2 str!"ENTITIES", .newStr 0 str!"LINE", .newStr 8 str!"WALLS",
    .newStr 0 str!"ENDSEC", .newStr 0 str!"EOF"]

/-- What is loaded from it has the layer. -/
def looseLine_layer : Bool :=
  match Drawing.load (Img := Unit) ⟨fun _ => .ok [], fun _ => .ok ()⟩ (Rec.dflt _) []
      (toStream looseLine) with
  | (.ok d, _) => d.has .layer str!"WALLS" && d.has .lineType str!"CONTINUOUS" &&
      d.entities.length == 1
  | _ => false

example : looseLine_layer = true := by decide +kernel

/-- C59 is violated by removing: whoever removes the entry that is found by its name for a layer
leaves the entities on that layer behind. -/
theorem C59_violated : ∃ d d' : Drawing Unit, ∃ e, d.Closed ∧ d.entities = [e] ∧
    (Op.remove .layer 0).run d = .ok d' ∧ d'.entities = [e] ∧ d'.has .layer e.layer = false := by
  let e : Entity := EName.line.plain
  let d : Drawing Unit := ⟨Rec.dflt _, [], fun t => [t.named e.layer, t.named e.lineType,
    t.named str!"CONTINUOUS"], [], [e], [], none⟩
  have hl : ∀ t, d.has t e.layer = true ∧ d.has t e.lineType = true ∧
      d.has t str!"CONTINUOUS" = true := by
    intro t
    cases t <;> exact ⟨rfl, rfl, rfl⟩
  refine ⟨d, (d.remove .layer 0).2, e, ⟨fun x hx => ?_, (fun _ h => nomatch h), fun x hx => ?_,
    (fun _ h => nomatch h)⟩, rfl, rfl, rfl, rfl⟩
  · simp only [d, List.mem_cons, List.not_mem_nil, or_false] at hx
    rcases hx with rfl | rfl | rfl <;> exact (hl _).2.2
  · cases List.mem_singleton.mp hx
    exact ⟨(hl _).1, (hl _).2.1, (fun _ h => nomatch h), (fun _ h => nomatch h),
      (fun _ h => nomatch h)⟩

end Dxf
