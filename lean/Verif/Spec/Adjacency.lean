import Verif.Model.Flow

/-!
# Specification vocabulary for the adjacencies of a boundary matrix, and the contract of the sparse product
-/

namespace Verif

/-- The cells with both columns `i` and `j` in their boundary (rows of `B`), counted with the product of the
two signs. -/
def common (B : Mat) (i j : Nat) : Int := ((List.range B.rows).map fun k => B.entry k i * B.entry k j).sum

/-- What is assumed of scipy's sparse product `B.T.dot(B)` in coordinate form: every entry that is not zero is
stored once and nothing else is, and the order of the entries depends on which entries of the factor and of the
product are zero only. -/
structure SparseLib.Correct (lib : SparseLib) : Prop where
  nodup : ∀ B, (lib.stored B).Nodup
  mem : ∀ B i j, (i, j) ∈ lib.stored B ↔ i < B.cols ∧ j < B.cols ∧ common B i j ≠ 0
  pattern : ∀ B B' : Mat, B.rows = B'.rows → B.cols = B'.cols →
    (∀ i j, i < B.rows → j < B.cols → (B.entry i j = 0 ↔ B'.entry i j = 0)) →
    (∀ i j, i < B.cols → j < B.cols → (common B i j = 0 ↔ common B' i j = 0)) → lib.stored B = lib.stored B'

/-- All positions by rows and columns. -/
def rowMajor (n : Nat) (p : Nat → Nat → Bool) : List (Nat × Nat) :=
  (List.range n).flatMap fun i => ((List.range n).filter (p i)).map fun j => (i, j)

theorem mem_rowMajor {n : Nat} {p : Nat → Nat → Bool} {i j : Nat} :
    (i, j) ∈ rowMajor n p ↔ i < n ∧ j < n ∧ p i j = true := by
  unfold rowMajor
  simp only [List.mem_flatMap, List.mem_range, List.mem_map, List.mem_filter, Prod.mk.injEq]
  constructor
  · rintro ⟨a, ha, b, ⟨hb, hp⟩, rfl, rfl⟩
    exact ⟨ha, hb, hp⟩
  · rintro ⟨h1, h2, h3⟩
    exact ⟨i, h1, j, ⟨h2, h3⟩, rfl, rfl⟩

theorem rowMajor_nodup (n : Nat) (p : Nat → Nat → Bool) : (rowMajor n p).Nodup := by
  unfold rowMajor
  rw [List.nodup_flatMap]
  constructor
  · intro i _
    exact (List.nodup_range.filter _).map (fun a b h => (Prod.mk.injEq _ _ _ _ ▸ h).2)
  · refine List.nodup_range.imp ?_
    intro a b hab
    simp only [Function.onFun]
    intro q h1 h2
    obtain ⟨x, -, rfl⟩ := List.mem_map.mp h1
    obtain ⟨y, -, h⟩ := List.mem_map.mp h2
    rw [Prod.mk.injEq] at h
    exact hab h.1.symm

/-- Storing the entries by rows and columns. -/
def rowMajorLib : SparseLib := ⟨fun B => rowMajor B.cols fun i j => decide (common B i j ≠ 0)⟩

/-- The contract can be met. -/
theorem rowMajorLib_correct : rowMajorLib.Correct where
  nodup _ := rowMajor_nodup _ _
  mem B i j := by
    show (i, j) ∈ rowMajor _ _ ↔ _
    rw [mem_rowMajor, decide_eq_true_eq]
  pattern B B' _ hc _ h := by
    show rowMajor _ _ = rowMajor _ _
    unfold rowMajor
    rw [← hc]
    apply List.flatMap_congr
    intro i hi
    congr 1
    apply List.filter_congr
    intro j hj
    rw [List.mem_range] at hi hj
    rw [decide_eq_decide, not_iff_not]
    exact h i j hi hj

end Verif
