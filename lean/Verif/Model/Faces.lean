import Verif.Model.Ocean

/-!
# The faces of a boundary matrix
-/

namespace Verif

/-- The body of the loop over the columns of `faces_from_B2` (data/datasets/ocean_utils.py:46-53): `np.where` gives the rows
that are not zero in column `j`, `E[edge_idxs]` their edges, an `IndexError` if there is no such edge.
Simplified: a set is a list without duplicates. -/
def faceOfColumn (B2 : Mat) (E : List (Nat × Nat)) (j : Nat) : Py (List Nat) := do
  let edges ← mapE (getAt E) ((List.range B2.rows).filter fun i => decide (B2.entry i j ≠ 0))
  return (firsts (edges.flatMap fun e => [e.1, e.2])).insertionSort (· ≤ ·)

/-- `faces_from_B2` (data/datasets/ocean_utils.py:41-54). -/
def facesFromB2 (B2 : Mat) (E : List (Nat × Nat)) : Py (List (List Nat)) :=
  mapE (faceOfColumn B2 E) (List.range B2.cols)

end Verif
