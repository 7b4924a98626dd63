import Verif.Spec.Rings
import Mathlib.Data.Set.Card

/-!
# Specification vocabulary for the number of rings
-/

namespace Verif

/-- How many sets of `k` vertices of the graph carry an induced cycle. -/
noncomputable def ringCount (edges : List (Nat × Nat)) (k : Nat) : Nat :=
  {s : Finset Nat | ∃ r, IsRing edges r ∧ r.length = k ∧ r.toFinset = s}.ncard

end Verif
