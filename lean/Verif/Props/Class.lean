import Verif.Lemmas.Class

/-! C23: classes survive saving. -/

namespace Dxf

/-- C23: reading what was written for a list of classes gives the same classes in the same order,
each with everything the version says about a class, and stops at the end of the section.

The full claim is false of the code for classes with more than `i32::MAX` instances (`C23_count`)
and, before R14, for a class with the record name `ENDSEC` (`C23_endsec`).  That the flags are
independent bits is part of C43. -/
theorem C23_partial (v : Version) (cs : List Class)
    (hname : v ≤ .r13 → ∀ c ∈ cs, c.recordName ≠ str!"ENDSEC")
    (hcount : .r2004 ≤ v → ∀ c ∈ cs, c.instanceCount.toNat < 2 ^ 31) (rest : Stream) :
    Rd.withFuel (Class.readAll v)
        (toStream (cs.flatMap (Class.pairs v) ++ [.newStr 0 str!"ENDSEC"]) ++ rest) =
      (.ok (cs.map (Class.visible v)), toStream [.newStr 0 str!"ENDSEC"] ++ rest) := by
  rw [Rd.run_withFuel, Class.readAll_written v cs (fun c hc h => hname h c hc) rest _
    (by simp; omega)]
  congr 2
  refine List.map_congr_left fun c hc => ?_
  unfold Class.back Class.visible
  by_cases h4 : Version.r2004 ≤ v
  · have := hcount h4 c hc
    simp only [if_pos h4]
    congr 1
    apply BitVec.eq_of_toNat_eq
    rw [BitVec.truncate_eq_setWidth, BitVec.toNat_signExtend]
    have hm : (BitVec.setWidth 32 c.instanceCount).msb = false := by
      rw [BitVec.msb_eq_decide, BitVec.toNat_setWidth]
      simp only [Nat.add_one_sub_one, decide_eq_false_iff_not, not_le]
      omega
    rw [hm]
    simp only [BitVec.toNat_setWidth]
    have : c.instanceCount.toNat < 2 ^ 64 := c.instanceCount.isLt
    simp
    omega
  · simp only [if_neg h4]
    split <;> rfl

/-- Satisfiable in every version, with two classes that differ. -/
example (v : Version) : ∃ cs : List Class, cs.length = 2 ∧ cs.Nodup ∧
    (v ≤ .r13 → ∀ c ∈ cs, c.recordName ≠ str!"ENDSEC") ∧
    (.r2004 ≤ v → ∀ c ∈ cs, c.instanceCount.toNat < 2 ^ 31) :=
  ⟨[⟨str!"ACDBDICTIONARYWDFLT", str!"AcDbDictionaryWithDefault", str!"ObjectDBX Classes", 5#32,
      3#32, 7#64, true, false⟩, Class.dflt], rfl, by decide, by intro _; decide,
    by intro _; decide⟩

/-- C23 fails: the number of instances is cut down to 32 bits and its sign extended. -/
theorem C23_count : ∃ c : Class,
    (Rd.withFuel (Class.readAll .r2018)
      (toStream (c.pairs .r2018 ++ [.newStr 0 str!"ENDSEC"]))).1.toOption.map
        (·.map (·.instanceCount)) = some [18446744071562067968#64] ∧
    c.instanceCount = 2147483648#64 :=
  ⟨{ Class.dflt with instanceCount := 2147483648#64 }, by decide +kernel, rfl⟩

/-- C23 fails: in R13 a class with the record name `ENDSEC` is taken for the end of the section,
and it and all classes after it are lost. -/
theorem C23_endsec (c : Class) (cs : List Class) (h : c.recordName = str!"ENDSEC") (v : Version)
    (hv : v ≤ .r13) (rest : Stream) : ∃ s,
    Rd.withFuel (Class.readAll v)
        (toStream ((c :: cs).flatMap (Class.pairs v) ++ [.newStr 0 str!"ENDSEC"]) ++ rest) =
      (.ok [], s) := by
  have hm : c.mark v = str!"ENDSEC" := by
    unfold Class.mark
    rw [if_neg ((Class.old_iff v).mp hv), h]
  rw [Rd.run_withFuel, List.flatMap_cons, Class.pairs_eq, hm]
  exact ⟨_, rfl⟩

/-- Satisfiable. -/
example : ∃ c : Class, c.recordName = str!"ENDSEC" ∧ Version.r13 ≤ .r13 :=
  ⟨{ Class.dflt with recordName := str!"ENDSEC" }, rfl, by decide⟩

end Dxf
