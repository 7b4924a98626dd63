import Mathlib.Order.Defs.LinearOrder
import Verif.Model.FlowRects

/-! # Specification of the rectangles of the flow dataset -/

namespace Verif

variable {K : Type}

/-- The numbers are increasing. -/
def Marks.Increasing [LT K] (m : Marks K) : Prop := m.m0 < m.m2 ∧ m.m2 < m.m4 ∧ m.m4 < m.m6 ∧ m.m6 < m.m8 ∧ m.m8 < m.m10

/-- No point is in both regions. -/
def Apart {P : Type} (a b : P → Bool) : Prop := ∀ p, ¬ (a p = true ∧ b p = true)

/-- A point is in both regions exactly if it is the given one. -/
def TouchAt {P : Type} (a b : P → Bool) (q : P) : Prop := ∀ p, a p = true ∧ b p = true ↔ p = q

end Verif
