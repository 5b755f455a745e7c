import Verif.Spec.Objects
import Verif.Lemmas.Staged
import Verif.Lemmas.Tables

/-! Reading what was written for an object. -/

namespace Dxf

namespace OName

/-- The codes whose value matters for the mode. -/
def vals : OName → Int → Bool
  | .layout, c => c == 100
  | _, _ => false

/-- The pairs with this code are left to `Entry.apply`. -/
def quiet (k : OName) (m : OMode) (c : Int) : Bool :=
  match k with
  | .dictionary => !([(3 : Int), 350, 360].contains c)
  | .dictionaryWithDefault => !([(3 : Int), 350, 360].contains c)
  | .dataTable => !([(1 : Int), 90, 91, 2, 92, 3, 40, 71, 93, 10, 20, 30, 11, 21, 31].contains c)
  | .sectionSettings => c != 1
  | .spatialFilter => !([(10 : Int), 20, 30].contains c) && (c != 40 || !m.a)
  | .sunStudy => (c != 90 || !m.seen.contains 90) && (c != 290 || !m.a)
  | .tableStyle => c != 7
  | .xRecordObject => !m.a && (c == 280 || c == 100 || Obj.xRecordCommon c)
  | _ => true

/-- The statement for a date: whether it can be read depends on the date. -/
def dated (k : OName) (arms : List (Arm k.decls)) (c : Cmd k.decls) : Bool :=
  match k with
  | .layerIndex | .spatialIndex =>
    (match c with
      | .field i w => i == 2 && w.undoneBy (armOn arms i)
      | _ => false)
  | _ => false

/-- What the lists between and after the fields need of the mode. -/
def mode3 (k : OName) (m : OMode) : Bool :=
  match k with
  | .sunStudy => m.a
  | _ => true

def mode4 (k : OName) (m : OMode) : Bool :=
  match k with
  | .spatialFilter => m.a
  | _ => true

/-- A statement that is not always emitted must not change the mode: the owner of a
`SortentsTable` is only read when its code does not. -/
def calm (k : OName) (m : OMode) (c : Int) : Bool :=
  match k with
  | .sortentsTable => c != 330 || m.a
  | _ => true

/-- What is needed of statements and the modes they are read in. -/
def fine (k : OName) (as : List (OMode × GCmd k.decls)) (skip : List Nat) : Bool :=
  as.all fun x => (x.2.cmd.safeL (k.kind.arms x.1) || k.dated (k.kind.arms x.1) x.2.cmd) &&
    x.2.cmd.clean (k.kind.arms x.1) skip &&
    x.2.cmd.codes.all fun c => plainCode c && k.quiet x.1 c && k.calm x.1 c

/-- What has to be true of the tables of a kind. -/
def check (k : OName) (v : Version) (skip : List Nat) : Bool :=
  match annotate k.kind.next k.vals OMode.start (gated v k.part1) with
  | none => false
  | some (as1, m1) =>
    k.fine as1 skip &&
    match annotate k.kind.next k.vals m1 (gated v k.part2) with
    | none => false
    | some (as2, m2) =>
      k.fine as2 skip &&
      match annotate k.kind.next k.vals m2 (gated v k.part3) with
      | none => false
      | some (as3, m3) =>
        k.fine as3 skip && k.mode3 m3 &&
        match annotate k.kind.next k.vals m3 (gated v k.part4) with
        | none => false
        | some (as4, m4) =>
          k.fine as4 skip && k.mode4 m4 &&
          (List.range k.decls.length).all fun i =>
            skip.contains i || growOKa (gated v k.statements) i

/-- Fields that are overwritten while reading but written after that. -/
def late : OName → Version → List Nat
  | .dimensionAssoc, _ => [2]
  | .material, v => if .r2007 ≤ v then [75] else []
  | _, _ => []

/-- The statement writes the field with one pair. -/
def writesOne {ds : List Decl} (i : Nat) (g : GCmd ds) : Bool :=
  match g.cmd.onField i with
  | some (.one _ _) => true
  | _ => false

/-- The statements from the last one for field `i` on, with their modes. -/
def lateOK (k : OName) (v : Version) (i : Nat) : Bool :=
  match annotate k.kind.next k.vals OMode.start (gated v k.statements) with
  | none => false
  | some (as, _) =>
    (List.range as.length).any fun n =>
      match as.drop n with
      | x :: as => writesOne i x.2 && fieldOKa k.kind.arms (x :: as) i
      | [] => false

/-- The check for all versions. -/
def checkAll (k : OName) : Bool :=
  Version.all.all fun v => !k.supported v || (k.check v (k.lost v ++ k.late v) &&
    (k.late v).all fun i => k.lateOK v i && !(tyAt k.decls i).grows)

theorem check_kinds : ∀ k ∈ OName.all, (decide (k = .xRecordObject) || k.checkAll) = true := by
  decide +kernel

theorem check_both (k : OName) (hk : k ≠ .xRecordObject) (v : Version)
    (hs : k.supported v = true) :
    k.check v (k.lost v ++ k.late v) = true ∧ ∀ i ∈ k.late v, k.lateOK v i = true ∧
      (tyAt k.decls i).grows = false := by
  have h := check_kinds k (mem_all k)
  simp only [hk, decide_false, Bool.false_or, checkAll, List.all_eq_true, Bool.or_eq_true,
    Bool.not_eq_true', Bool.and_eq_true] at h
  have hv : v ∈ Version.all := by cases v <;> decide
  rcases h v hv with h | h
  · rw [hs] at h; cases h
  · exact h

end OName
end Dxf
