import Verif.Model.Perm

/-!
# Specification vocabulary for permutations and the contract of the sparse matrices
-/

namespace Verif

/-- `σ` permutes the numbers below `n`. -/
structure IsPermutation (n : Nat) (σ : Nat → Nat) : Prop where
  lt : ∀ i, i < n → σ i < n
  inj : ∀ i j, i < n → j < n → σ i = σ j → i = j

/-- `P` is the matrix of `σ`: row `i` has its one at `σ i`. -/
structure MatrixOf (P : Mat) (n : Nat) (σ : Nat → Nat) : Prop where
  rows : P.rows = n
  cols : P.cols = n
  entry : ∀ i j, i < n → j < n → P.entry i j = if σ i = j then 1 else 0

/-- What is assumed of `tocoo` on a product of matrices without negative entries: every entry that is not zero is
stored once, and nothing else. -/
structure CooLib.Correct (lib : CooLib) : Prop where
  nodup : ∀ A, (lib.stored A).Nodup
  mem : ∀ A i j, (i, j) ∈ lib.stored A ↔ i < A.rows ∧ j < A.cols ∧ A.entry i j ≠ 0

end Verif
