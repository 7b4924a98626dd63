import Mathlib.Analysis.Real.Sqrt
import Mathlib.Algebra.BigOperators.Fin

/-!
# Mean and variance of a column
-/

namespace Verif

noncomputable section

/-- The rows with a value. -/
def known {n : Nat} (x : Fin n → Option ℝ) : Finset (Fin n) := Finset.univ.filter fun i => (x i).isSome

/-- The mean of the values. -/
def columnAverage {n : Nat} (x : Fin n → Option ℝ) : ℝ := (∑ i ∈ known x, (x i).getD 0) / (known x).card

/-- Their sample variance. -/
def sampleVariance {n : Nat} (x : Fin n → Option ℝ) : ℝ :=
  (∑ i ∈ known x, ((x i).getD 0 - columnAverage x) ^ 2) / ((known x).card - 1)

/-- The standardised column. -/
def standard {n : Nat} (x : Fin n → Option ℝ) (i : Fin n) : Option ℝ :=
  (x i).map fun v => (v - columnAverage x) / Real.sqrt (sampleVariance x)

/-- A column with two different values. -/
def Varies {n : Nat} (x : Fin n → Option ℝ) : Prop := ∃ i j a b, x i = some a ∧ x j = some b ∧ a ≠ b

end

end Verif
