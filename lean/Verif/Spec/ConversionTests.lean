import Verif.Spec.Complex
import Verif.Spec.Rings

/-!
# Complexes whose vertices and edges are a simple graph
-/

namespace Verif

variable {F L : Type}

/-- The columns `up` join different vertices, each pair once in each direction, and both directions name
the same edge of `shared`. -/
structure PlainColumns (up : List (Nat × Nat)) (shared : List Nat) : Prop where
  nodup : up.Nodup
  both : ∀ e ∈ up, e.swap ∈ up
  noLoops : NoLoops up
  shared : ∀ (i j : Nat) (e : Nat × Nat), up[i]? = some e → up[j]? = some e.swap → shared[i]? = shared[j]?

/-- The vertices and edges of the complex are a graph without loops and without parallel edges. -/
def Complex.GraphLike (comp : Complex F L) : Prop :=
  PlainColumns ((comp.attr 0 Cochain.upperIndex).getD []) ((comp.attr 0 Cochain.sharedCoboundaries).getD [])

end Verif
