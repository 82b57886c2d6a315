import Mathlib.Data.Fintype.Prod
import Verif.Spec.Kzg

/-!
What C98 speaks about: which of the 4096 elements of a blob differ from those of another one, and which of the 4096 elements of the
extension (cells 64 to 127) do not.
-/
namespace Verif.Spec

/-- the elements in which two blobs differ -/
def changed (blob blob' : List UInt8) : Finset (Fin 4096) :=
  Finset.univ.filter fun i => block 32 i blob ≠ block 32 i blob'

/-- the elements of cells 64 to 127 in which two lists of cells agree, as pairs of the cell (less 64) and the place in it -/
def kept (cells cells' : List (List UInt8)) : Finset (Fin 64 × Fin 64) :=
  Finset.univ.filter fun p => (cells[64 + p.1.val]?).map (block 32 p.2) = (cells'[64 + p.1.val]?).map (block 32 p.2)

end Verif.Spec
