import Verif.Model.Rd

/-! Extension data groups, src/extension_data.rs. -/

namespace Dxf

/-- Models `ExtensionGroupItem`, src/extension_data.rs:18-21; the `ExtensionGroup` inside
`Group` is written out as name and items. -/
inductive ExtItem where
  | pair (p : CodePair)
  | group (name : Str) (items : List ExtItem)

/-- Models `ExtensionGroup`, src/extension_data.rs:10-13. -/
structure ExtGroup where
  name : Str
  items : List ExtItem

/-- Models the loop of `read_group`, src/extension_data.rs:34-57, with the nested call
(48) inlined.  The `starts_with('{')` test of the nested call (30-32) is the one made
before the call, and `remove(0)` (34) is taking the tail.  `fuel` bounds the number of
pairs read. -/
def readExtItems : Nat → Rd (List ExtItem)
  | 0 => Rd.fail .outOfFuel
  | fuel + 1 => do
    let pair ← Rd.next
    if pair.code = 102 then
      match ← Rd.lift pair.assertString with
      | '{' :: name =>
        let sub ← readExtItems fuel
        let rest ← readExtItems fuel
        return .group name sub :: rest
      | name =>
        if name = str!"}" then return []
        else Rd.fail (.unexpectedCodePair pair)
    else
      let rest ← readExtItems fuel
      return .pair pair :: rest

/-- Models `ExtensionGroup::read_group`, src/extension_data.rs:25-63. -/
def ExtGroup.read (applicationName : Str) (offset : Nat) : Rd ExtGroup :=
  match applicationName with
  | '{' :: name => Rd.withFuel fun fuel => do return ⟨name, ← readExtItems fuel⟩
  | _ => Rd.fail (.parseError offset)

mutual
/-- Models the body of the loop in `ExtensionGroup::add_code_pairs`,
src/extension_data.rs:71-74, and for a nested group `add_code_pairs` itself (64-78). -/
def ExtItem.pairs : ExtItem → List CodePair
  | .pair p => [p]
  | .group name items =>
    match items with
    | [] => []
    | i :: is =>
      .newStr 102 ('{' :: name) :: (ExtItem.pairs i ++ ExtItem.pairsList is) ++
        [.newStr 102 str!"}"]
/-- Models the loop in `ExtensionGroup::add_code_pairs`, src/extension_data.rs:70-75. -/
def ExtItem.pairsList : List ExtItem → List CodePair
  | [] => []
  | i :: is => ExtItem.pairs i ++ ExtItem.pairsList is
end

/-- Models `ExtensionGroup::add_code_pairs`, src/extension_data.rs:64-78. -/
def ExtGroup.pairs (g : ExtGroup) : List CodePair :=
  if g.items.isEmpty then []
  else .newStr 102 ('{' :: g.name) :: ExtItem.pairsList g.items ++ [.newStr 102 str!"}"]

end Dxf
