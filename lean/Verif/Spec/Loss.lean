import Mathlib.Data.Rat.Defs
import Mathlib.Algebra.Order.Field.Rat
import Mathlib.Algebra.BigOperators.Fin

/-!
# What a loss should be

Labels of `n` complexes for `T` targets are a function `y : Fin n → Fin T → Option ℚ`, with `none` for a missing one.
-/

namespace Verif

/-- The places at which a label is present. -/
def labelled {n T : Nat} (y : Fin n → Fin T → Option ℚ) : Finset (Fin n × Fin T) :=
  Finset.univ.filter fun e => (y e.1 e.2).isSome

/-- The mean error over the labels that are present; `none` if there are none. -/
def meanError {n T : Nat} (f : ℚ → ℚ → ℚ) (p : Fin n → Fin T → ℚ) (y : Fin n → Fin T → Option ℚ) : Option ℚ :=
  if labelled y = ∅ then none
  else some ((∑ e ∈ labelled y, f (p e.1 e.2) ((y e.1 e.2).getD 0)) / (labelled y).card)

/-- A function of two indices as rows. -/
def matrixRows {n T : Nat} {α : Type} (p : Fin n → Fin T → α) : List (List α) :=
  List.ofFn fun i => List.ofFn (p i)

end Verif
