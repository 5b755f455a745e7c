import Verif.Lemmas.Saving
import Verif.Model.Bytes
import Verif.Props.Panics

/-! C52: which drawings can be saved. -/

namespace Dxf

open Drawing

variable {Img : Type} {codec : ImageCodec Img}

private theorem objects_ok (d : Drawing Img) : (∃ os, d.objectPairs = .ok os) ↔
    (.r13 ≤ d.version → ∀ o ∈ d.objects, o.kind = .dataTable →
      o.kind.supported d.version = true → o.extra.table.Complete) := by
  have hm := mapM_ok_iff (Object.pairs d.version) d.objects
  simp only [objectPairs_ok] at hm
  unfold objectPairs
  by_cases hv : Version.r13 ≤ d.version
  · rw [if_pos hv]
    cases hx : d.objects.mapM (Object.pairs d.version) with
    | ok ys => exact ⟨fun _ _ => hm.mp ⟨ys, hx⟩, fun _ => ⟨_, rfl⟩⟩
    | error e =>
      refine ⟨fun ⟨_, h⟩ => (by cases h), fun h => ?_⟩
      obtain ⟨ys, hy⟩ := hm.mpr (h hv)
      rw [hx] at hy
      cases hy
  · rw [if_neg hv]
    exact ⟨fun _ h => absurd h hv, fun _ => ⟨_, rfl⟩⟩

private theorem thumbnail_ok (d : Drawing Img) : (∃ ts, d.thumbnailPairs codec = .ok ts) ↔
    (.r2000 ≤ d.version → ∀ img, d.thumbnail = some img →
      ∃ data, codec.toBmp img = .ok data ∧ 14 ≤ data.length) := by
  unfold thumbnailPairs
  by_cases hv : Version.r2000 ≤ d.version
  · rw [if_pos hv]
    cases ht : d.thumbnail with
    | none => exact ⟨fun _ _ _ h => (by cases h), fun _ => ⟨_, rfl⟩⟩
    | some img =>
      dsimp only
      unfold Thumbnail.pairs
      cases hb : codec.toBmp img with
      | error e =>
        refine ⟨fun ⟨_, h⟩ => (by cases h), fun h => ?_⟩
        obtain ⟨data, h, -⟩ := h hv img rfl
        rw [hb] at h
        cases h
      | ok data =>
        constructor
        · rintro ⟨ts, h⟩ - img' h'
          cases h'
          refine ⟨data, hb, ?_⟩
          change (if data.length < 14 then _ else _) = _ at h
          split at h
          · cases h
          · omega
        · intro h
          obtain ⟨data', h1, h2⟩ := h hv img rfl
          rw [hb] at h1
          cases h1
          change ∃ ts, (if data.length < 14 then _ else _) = _
          rw [if_neg (by omega)]
          exact ⟨_, rfl⟩
  · rw [if_neg hv]
    exact ⟨fun _ h => absurd h hv, fun _ => ⟨_, rfl⟩⟩

/-- C52: saving succeeds exactly if the data tables that are written are complete and the thumbnail
can be made a bitmap; nothing else can go wrong. -/
theorem C52_iff (d : Drawing Img) : (∃ ps, d.codePairs codec = .ok ps) ↔ d.Savable codec := by
  unfold Savable
  rw [← objects_ok, ← thumbnail_ok]
  unfold codePairs
  cases ho : d.objectPairs with
  | error e => exact ⟨fun ⟨_, h⟩ => (by cases h), fun ⟨⟨_, h⟩, _⟩ => by cases h⟩
  | ok os =>
    cases ht : d.thumbnailPairs codec with
    | error e => exact ⟨fun ⟨_, h⟩ => (by cases h), fun ⟨_, ⟨_, h⟩⟩ => by cases h⟩
    | ok ts => exact ⟨fun _ => ⟨⟨_, rfl⟩, ⟨_, rfl⟩⟩, fun _ => ⟨_, rfl⟩⟩

/-- C52 for the two kinds of files. -/
theorem C52_files (d : Drawing Img) :
    ((∃ file, d.saveText codec = .ok file) ↔ d.Savable codec) ∧
    ((∃ file, d.saveBinary codec = .ok file) ↔ d.Savable codec) := by
  rw [← C52_iff]
  unfold saveText saveBinary
  cases d.codePairs codec with
  | ok ps => exact ⟨⟨fun _ => ⟨_, rfl⟩, fun _ => ⟨_, rfl⟩⟩, ⟨fun _ => ⟨_, rfl⟩, fun _ => ⟨_, rfl⟩⟩⟩
  | error e =>
    exact ⟨⟨fun ⟨_, h⟩ => (by cases h), fun ⟨_, h⟩ => by cases h⟩,
      ⟨fun ⟨_, h⟩ => (by cases h), fun ⟨_, h⟩ => by cases h⟩⟩

/-- If saving fails, it panics, or the image library has returned an error. -/
theorem C52_error {d : Drawing Img} {e : DxfErr} (h : d.codePairs codec = .error e) :
    e = .panic ∨ ∃ img, d.thumbnail = some img ∧ codec.toBmp img = .error e := by
  unfold codePairs at h
  cases ho : d.objectPairs with
  | error e' =>
    rw [ho] at h
    cases h
    left
    unfold objectPairs at ho
    split at ho
    · cases hx : d.objects.mapM (Object.pairs d.version) with
      | ok ys => rw [hx] at ho; cases ho
      | error e' =>
        rw [hx] at ho
        cases ho
        exact mapM_error (E := fun e => e = .panic) (fun o _ e he => objectPairs_error he) _ hx
    · cases ho
  | ok os =>
    rw [ho] at h
    cases ht : d.thumbnailPairs codec with
    | ok ts => simp only [bind, Except.bind, ht] at h; cases h
    | error e' =>
      simp only [bind, Except.bind, ht] at h
      cases h
      unfold thumbnailPairs at ht
      split at ht
      · split at ht
        · rename_i img hi
          unfold Thumbnail.pairs at ht
          cases hb : codec.toBmp img with
          | error e' =>
            rw [hb] at ht
            cases ht
            exact .inr ⟨img, hi, hb⟩
          | ok data =>
            rw [hb] at ht
            change (if data.length < 14 then _ else _) = _ at ht
            split at ht
            · cases ht; exact .inl rfl
            · cases ht
        · cases ht
      · cases ht

/-- C52 fails: a drawing that is loaded without a complaint makes saving panic.  Its data table has
a column, but no rows. -/
theorem C52_loaded {h0 : Header} {order : List Str} {d : Drawing Img}
    (h : Drawing.new h0 order = .ok d) : ∃ d', (load codec h0 order (toStream [
      .newStr 0 str!"SECTION", .newStr 2 str!"HEADER", .newStr 9 str!"$ACADVER",
      .newStr 1 str!"AC1024", .newStr 0 str!"ENDSEC",
      .newStr 0 str!"SECTION", .newStr 2 str!"OBJECTS", .newStr 0 str!"DATATABLE",
      .newStr 5 str!"A", .newI32 90 1, .newI32 91 0, .newStr 0 str!"ENDSEC", .newStr 0 str!"EOF"])).1 = .ok d' ∧
    d'.codePairs codec = .error .panic := by
  unfold load
  rw [h]
  exact ⟨_, rfl, rfl⟩

/-- A complete data table. -/
example : DataTable.Complete ⟨2, 2, str!"t", [str!"a"],
    [[some (.integer 1#32), none], [none, none]]⟩ := by
  intro col hc
  have : col = 0 ∨ col = 1 := by simp only at hc; omega
  rcases this with rfl | rfl
  · refine ⟨⟨_, rfl, by decide⟩, fun cells v h1 h2 => ⟨by decide, fun row hr => ?_⟩⟩
    have : row = 0 ∨ row = 1 := by simp only at hr; omega
    rcases this with rfl | rfl
    · exact ⟨_, rfl, by decide⟩
    · exact ⟨_, rfl, by decide⟩
  · refine ⟨⟨_, rfl, by decide⟩, fun cells v h1 h2 => ?_⟩
    cases h1
    cases h2

end Dxf
