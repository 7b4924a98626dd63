import Verif.Model.Matrix
import Mathlib.Algebra.Group.Defs

/-!
# Permuting graphs (data/perm_utils.py)
-/

namespace Verif

variable {R L : Type}

/-- `a.max()` of the numbers of one row or column; a `ValueError` if there are none. -/
def maxOf : List Int → Py Int
  | [] => .error .value
  | a :: l => .ok (l.foldl max a)

/-- `a.min()`, likewise. -/
def minOf : List Int → Py Int
  | [] => .error .value
  | a :: l => .ok (l.foldl min a)

/-- The columns of a matrix. -/
def Mat.columns (P : Mat) : List (List Int) :=
  (List.range P.cols).map fun j => (List.range P.rows).map fun i => P.entry i j

/-- The rows of a matrix. -/
def Mat.rowLists (P : Mat) : List (List Int) :=
  (List.range P.rows).map fun i => (List.range P.cols).map fun j => P.entry i j

/-- `np.all(v == c * np.ones(n))` with numpy's broadcasting: arrays of one entry are stretched. If the shapes do not
fit, the comparison is false (newer versions of numpy raise an error instead). -/
def allEqual (v : List Int) (c : Int) (n : Nat) : Bool :=
  if v.length = n ∨ n = 1 then v.all (· == c)
  else if v.length = 1 then decide (n = 0) || v.all (· == c)
  else false

/-- `np.array_equal(P, np.eye(n))`. -/
def isEye (P : Mat) (n : Nat) : Bool :=
  decide (P.rows = n) && decide (P.cols = n) &&
    (List.range n).all fun i => (List.range n).all fun j => decide (P.entry i j = if i = j then 1 else 0)

/-- The checks for more than one node (data/perm_utils.py:53-56). -/
def validMany (P : Mat) (n : Nat) : Py Bool := do
  let min0 ← mapE minOf P.columns
  let min1 ← mapE minOf P.rowLists
  return allEqual min0 0 n && allEqual min1 0 n && !isEye P n

/-- The checks for more than one node are made for more than one node. -/
def checkMany (P : Mat) (n : Nat) : Py Bool := if n > 1 then validMany P n else .ok true

/-- `is_valid_permutation_matrix` (data/perm_utils.py:45-57). `&=` evaluates all its operands. Only arrays of two
dimensions are modelled; the other ones are reported invalid or are errors. -/
def isValidPermutationMatrix (P : Mat) (n : Nat) : Py Bool := do
  let max0 ← mapE maxOf P.columns
  let max1 ← mapE maxOf P.rowLists
  let valid := decide (P.rows = n) && allEqual (P.columns.map List.sum) 1 n && allEqual (P.rowLists.map List.sum) 1 n &&
    allEqual max0 1 n && allEqual max1 1 n
  let more ← checkMany P n
  return valid && more

/-- `np.eye(size)[perm]` (data/perm_utils.py:65-67). -/
def eyeRows (perm : List Nat) (size : Nat) : Mat :=
  ⟨perm.length, size, fun i j => if perm[i]? = some j then 1 else 0⟩

/-- One round of the loop (data/perm_utils.py:65-70). -/
def keepValid (size : Nat) (Ps : List Mat) (perm : List Nat) : Py (List Mat) := do
  let valid ← isValidPermutationMatrix (eyeRows perm size) size
  return if valid then Ps ++ [eyeRows perm size] else Ps

/-- `generate_permutation_matrices` (data/perm_utils.py:59-72) for the permutations that the random state yields, of
which it uses as many as it needs. `none` stands for a loop that has not ended when they are used up. -/
def generatePermutationMatrices (size amount : Nat) : List (List Nat) → List Mat → Py (Option (List Mat))
  | [], Ps => .ok (if amount ≤ Ps.length then some Ps else none)
  | perm :: perms, Ps =>
    if amount ≤ Ps.length then .ok (some Ps)
    else do
      let Ps ← keepValid size Ps perm
      generatePermutationMatrices size amount perms Ps

/-- The graph given to `permute_graph`: the rows of its nodes, its labels and its edges, and whether it has edge
features. -/
structure PGraph (R L : Type) where
  x : List R
  y : Option (List L)
  edges : List (Nat × Nat)
  hasEdgeAttr : Bool

/-- scipy's `tocoo`: the positions at which a matrix is stored. -/
structure CooLib where
  stored : Mat → List (Nat × Nat)

/-- `P @ x`; `ValueError` when the shapes do not fit. -/
def matRows [AddCommGroup R] (P : Mat) (x : List R) : Py (List R) :=
  if P.cols = x.length then
    .ok ((List.range P.rows).map fun i => (x.zipIdx.map fun p => P.entry i p.2 • p.1).sum)
  else .error .value

/-- The labels of the permuted graph (data/perm_utils.py:22-28). -/
def permLabels [AddCommGroup L] (P : Mat) (n : Nat) : Option (List L) → Py (Option (List L))
  | none => .ok none
  | some y => if y.length = n then (matRows P y).map some else .ok (some y)

/-- `sp.csr_matrix((np.ones, (rows, cols)), shape=(n, n))`: repeated positions are added up, and positions outside
the shape are a `ValueError`. -/
def csrOnes (edges : List (Nat × Nat)) (n : Nat) : Py Mat :=
  if edges.all fun e => decide (e.1 < n) && decide (e.2 < n) then
    .ok ⟨n, n, fun i j => (edges.count (i, j) : Int)⟩
  else .error .value

/-- The edges of the permuted graph (data/perm_utils.py:30-38). -/
def permEdges (lib : CooLib) (P : Mat) (n : Nat) (edges : List (Nat × Nat)) : Py (List (Nat × Nat)) :=
  if 0 < edges.length then do
    let A ← csrOnes edges n
    let PA ← P.dot A
    let PAP ← PA.dot P.transpose
    return lib.stored PAP
  else .ok edges

/-- `permute_graph` (data/perm_utils.py:7-43). Conversions between types are left out. -/
def permuteGraph [AddCommGroup R] [AddCommGroup L] (lib : CooLib) (graph : PGraph R L) (P : Mat) :
    Py (PGraph R L) := do
  pyAssert (!graph.hasEdgeAttr)
  let valid ← isValidPermutationMatrix P graph.x.length
  pyAssert valid
  let x ← matRows P graph.x
  let y ← permLabels P graph.x.length graph.y
  let edges ← permEdges lib P graph.x.length graph.edges
  return ⟨x, y, edges, false⟩

end Verif
