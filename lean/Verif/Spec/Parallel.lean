import Verif.Model.Parallel
import Verif.Spec.Convert

/-!
# Specification of the parallel conversion
-/

namespace Verif

variable {A B F L : Type}

/-- The events that dispatch and finish all tasks one after the other. -/
def oneByOne (n : Nat) : List PoolEvent := (List.range n).flatMap fun i => [.dispatch, .finish i]

/-- The graph cannot be told from the other by its label, the features of its nodes and its number of edges. -/
def GraphData.LooksLike (a b : GraphData F L) : Prop :=
  a.y = b.y ∧ a.x = b.x ∧ a.edgeIndex.length / 2 = b.edgeIndex.length / 2

end Verif
