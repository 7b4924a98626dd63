import Verif.Model.Magnitude
import Verif.Spec.SR
import Mathlib.Order.Bounds.Defs

/-!
# Specification of the magnitudes of embeddings
-/

namespace Verif

variable {R : Type}

/-- The graph has an induced cycle of at most `k` nodes. -/
def RawGraph.HasRing (G : RawGraph) (k : Nat) : Prop := ∃ r, IsRing G.1 r ∧ r.length ≤ k

/-- The libraries keep their contracts. -/
structure SRLibs.Ok (libs : SRLibs) : Prop where
  gudhi : libs.gudhi.Ok
  rings : libs.rings.Ok
  gudhi' : libs.gudhi'.Ok
  rings' : libs.rings'.Ok
  order : ∀ l, (libs.order l).Perm l

/-- The absolute values of the entries of some rows. -/
def absEntries (entries : R → List ℚ) (rows : List R) : Set ℚ := {v | ∃ r ∈ rows, ∃ e ∈ entries r, v = |e|}

end Verif
