import Verif.Spec.Complex

/-! # Specification of the tests of the initial layers -/

namespace Verif

/-- The last of `n` cells has a face. -/
def LastCovered (bi : List (Nat × Nat)) (n : Nat) : Prop := ∃ f, 0 < n ∧ (f, n - 1) ∈ bi

end Verif
