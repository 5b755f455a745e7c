import Verif.Model.File

/-! Positions in a file.  A pair that was read remembers its place (`offset`): a line number in a
text file, the number of a byte in a binary file.  Pairs that are kept as they were read (in
extension groups and in the data of an XRecord) keep it.  `strip` forgets these places. -/

namespace Dxf

/-- The pair without its place. -/
def CodePair.strip (p : CodePair) : CodePair := { p with offset := 0 }

mutual
/-- The item without the places of its pairs. -/
def ExtItem.strip : ExtItem → ExtItem
  | .pair p => .pair p.strip
  | .group name items => .group name (ExtItem.stripList items)
/-- The items without the places of their pairs. -/
def ExtItem.stripList : List ExtItem → List ExtItem
  | [] => []
  | i :: is => ExtItem.strip i :: ExtItem.stripList is
end

/-- The group without the places of its pairs. -/
def ExtGroup.strip (g : ExtGroup) : ExtGroup := ⟨g.name, ExtItem.stripList g.items⟩

/-- The entry without the places of the pairs in its extension groups. -/
def Entry.strip {ds : List Decl} (e : Entry ds) : Entry ds := { e with ext := e.ext.map .strip }

/-- The same for the other things that have extension groups. -/
def Flat.strip (x : Flat) : Flat := ⟨x.kind, x.sub, x.entry.strip⟩
def Entity.strip (e : Entity) : Entity := ⟨e.toFlat.strip, e.extra⟩
def Block.strip (b : Block) : Block := ⟨b.entry.strip, b.entities.map Entity.strip⟩
def OExtra.strip (x : OExtra) : OExtra := { x with pairs := x.pairs.map CodePair.strip }
def Object.strip (o : Object) : Object := ⟨o.kind, o.entry.strip, o.extra.strip⟩

/-- The drawing without the places of pairs. -/
def Drawing.strip {Img : Type} (d : Drawing Img) : Drawing Img := { d with
  tables := fun t => (d.tables t).map Entry.strip
  blocks := d.blocks.map Block.strip
  entities := d.entities.map Entity.strip
  objects := d.objects.map Object.strip }

end Dxf
