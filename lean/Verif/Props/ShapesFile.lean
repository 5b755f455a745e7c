import Verif.Props.Shapes
import Verif.Lemmas.Change

/-! Simple shapes in whole files (C77). -/

namespace Dxf

/-- An entity of a kind whose statements do not write the code 0 has that code once. -/
theorem zero_pairs {k : EName} {v : Version} (hk : k.supported v = true) {n : Nat} {wh : Bool}
    {e : Entry k.decls} (he : e.ext = [])
    (hz : ((((commonHead k.kind.spec wh ++ commonCmds k.kind.spec wh) ++ k.kind.cmds n).filter
      (GCmd.mentions 0)).isEmpty) = true) :
    withCode 0 (k.pairs n v wh e []) = [.newStr 0 k.kind.typeString] := by
  have hz : withCode 0 (emitAll ((commonHead k.kind.spec wh ++ commonCmds k.kind.spec wh) ++
      k.kind.cmds n) v e.fields) = [] := by
    rw [withCode_emitAll, List.isEmpty_iff.mp hz]
    rfl
  rw [emitAll_append, emitAll_append, withCode_append, withCode_append] at hz
  obtain ⟨h1, h3⟩ := List.append_eq_nil_iff.mp hz
  obtain ⟨h1, h2⟩ := List.append_eq_nil_iff.mp h1
  unfold EName.pairs EName.front
  rw [if_pos hk, he]
  have hx : withCode 0 (e.xdata.flatMap fun x => x.pairs v) = [] :=
    withCode_none fun p hp => by
      have := OName.xdata_codes e.xdata v p hp
      omega
  have h4 : withCode 0 [CodePair.newStr 0 k.kind.typeString] = [.newStr 0 k.kind.typeString] := rfl
  rw [withCode_append, hx, ← List.singleton_append]
  simp only [withCode_append, emitAll_append, h1, h2, h3, h4, List.flatMap_nil, ite_self,
    List.append_nil]

set_option maxRecDepth 20000 in
/-- The type is the only pair with the code 0, so all the others belong to the entity. -/
theorem C77_one {e : Entity} {s : Shape} (h : Shape.of e.toFlat = some s) (he : e.entry.ext = [])
    {v : Version} (hv : s.since ≤ v) (wh : Bool) :
    (e.pairs v wh).filter (fun q => decide (q.code = 0)) = [.newStr 0 s.name] := by
  have hs : ∀ v, Version.r13 ≤ v → EName.ray.supported v = true ∧ EName.xLine.supported v = true ∧
      EName.ellipse.supported v = true := by
    intro v
    cases v <;> decide
  obtain ⟨⟨k, n, x⟩, ex⟩ := e
  cases k <;> cases h
  case ray.refl => exact zero_pairs (hs v hv).1 he (by cases wh <;> rfl)
  case xLine.refl => exact zero_pairs (hs v hv).2.1 he (by cases wh <;> rfl)
  case ellipse.refl => exact zero_pairs (hs v hv).2.2 he (by cases wh <;> rfl)
  all_goals exact zero_pairs rfl he (by cases wh <;> rfl)

namespace Drawing

variable {Img : Type}

/-- C77 for whole files: what a drawing writes has an item for each simple shape among its entities.
The item begins with the type, has no other code 0, and has each code of the shape once, with the value
that the DXF reference asks for.  What follows is the next item or the end of the section. -/
theorem C77_file {codec : ImageCodec Img} {d : Drawing Img} {ps : List CodePair}
    (h : d.codePairs codec = .ok ps) {e : Entity} (hm : e ∈ d.entities) {s : Shape}
    (hs : Shape.of e.toFlat = some s) (he : e.entry.ext = []) (hv : s.since ≤ d.version) :
    ∃ pre item post, ps = pre ++ item ++ post ∧ item.head? = some (.newStr 0 s.name) ∧
      item.filter (fun q => decide (q.code = 0)) = [.newStr 0 s.name] ∧
      ∀ p ∈ s.codes, item.filter (fun q => decide (q.code = p.code)) = [p] := by
  obtain ⟨os, ts, -, -, rfl⟩ := codePairs_ok h
  obtain ⟨a, b, hab⟩ := List.append_of_mem hm
  have hp : d.entityPairs = inSection str!"ENTITIES"
      (d.entities.flatMap (Entity.pairs d.version d.writeHandles)) := rfl
  refine ⟨d.header.pairs ++ d.classPairs ++ d.tablePairs ++ d.blockPairs ++
    (.newStr 0 str!"SECTION" :: .newStr 2 str!"ENTITIES" ::
      a.flatMap (Entity.pairs d.version d.writeHandles)), e.pairs d.version d.writeHandles,
    b.flatMap (Entity.pairs d.version d.writeHandles) ++ [.newStr 0 str!"ENDSEC"] ++ os ++ ts ++
      [.newStr 0 str!"EOF"], ?_, (C77_written hs he hv _).1, C77_one hs he hv _,
      (C77_written hs he hv _).2⟩
  rw [hp, hab]
  simp [inSection]

/-- A drawing with a line writes it. -/
example {codec : ImageCodec Img} {d : Drawing Img} {ps : List CodePair} (a b : Point)
    (h : Drawing.codePairs codec { d with entities := [Entity.new .line (Line.new a b)] } = .ok ps) :
    ∃ pre item post, ps = pre ++ item ++ post ∧ item.head? = some (.newStr 0 str!"LINE") ∧
      item.filter (fun q => decide (q.code = 0)) = [.newStr 0 str!"LINE"] ∧
      ∀ p ∈ a.coded 10 ++ b.coded 11, item.filter (fun q => decide (q.code = p.code)) = [p] :=
  C77_file h (List.mem_singleton.mpr rfl) (C77_made a b a b .unit .unit .unit).1 rfl
    ((by intro v; cases v <;> decide : ∀ v, Version.v1_0 ≤ v) _)

end Drawing

end Dxf
