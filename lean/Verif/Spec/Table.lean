import Verif.Spec.Tper
import Verif.Model.Text
/-!
# Specification: reading a range of columns of a table

TCG Storage Architecture Core Specification, Get: the argument is a cell block, a list of named values. Opal numbers the
names (3 = startColumn, 4 = endColumn) and the columns; Enterprise spells both.
-/
namespace Dparm.Spec
open Dparm

/-- The cell block "columns `first` to `last`", by number. -/
def columnRange (first last : Nat) : List Token :=
  [.startList, .startName, .uint 3, .uint first, .endName, .startName, .uint 4, .uint last, .endName, .endList]

/-- The cell block "columns `first` to `last`", by name. -/
def namedRange (first last : Bytes) : List Token :=
  [.startList, .startName, .bytes (ascii "startColumn"), .bytes first, .endName,
   .startName, .bytes (ascii "endColumn"), .bytes last, .endName, .endList]

/-- Get of the cell block `block` of the table `uid`. -/
def getCall (uid : Bytes) (block : List Token) : Call := ⟨uid, mGet, block⟩

end Dparm.Spec
