import Verif.Spec.Rings
import Verif.Spec.Complex
import Verif.Model.Checks

/-!
# Specification of the project's own checks

Nothing here is used by the model of the code.
-/

namespace Verif

variable {F L : Type}

/-- `r` lists the vertices of a circuit of the directed graph in its order: no vertex twice, and an edge from each
to the one that follows. -/
structure IsCircuit (edges : List (Nat × Nat)) (r : List Nat) : Prop where
  nonempty : r ≠ []
  nodup : r.Nodup
  edge : ∀ (i j u v : Nat), r[i]? = some u → r[j]? = some v → Follows r.length i j → (u, v) ∈ edges

/-- The contract of `networkx.simple_cycles`: the lists it yields are circuits, and every circuit is yielded from
some starting point. -/
structure CycleLib.Ok (nx : CycleLib) : Prop where
  sound : ∀ edges, ∀ r ∈ nx.cycles edges, IsCircuit edges r
  complete : ∀ edges r, IsCircuit edges r → ∃ k, r.rotate k ∈ nx.cycles edges

/-- `v` is on the 2-cell `c`: an end of an edge of its boundary. -/
def Complex.OnRing (comp : Complex F L) (c v : Nat) : Prop :=
  ∃ f, (f, c) ∈ (comp.attr 2 Cochain.boundaryIndex).getD [] ∧ (v, f) ∈ (comp.attr 1 Cochain.boundaryIndex).getD []

/-- The attributes of two complexes that message passing and batching read. -/
structure Complex.AgreesWith (a b : Complex F L) (down : Bool) : Prop where
  dimension : a.dimension = b.dimension
  label : a.y = b.y
  count : ∀ d, a.cellsIn d = b.cellsIn d
  x : ∀ d, a.attr d Cochain.x = b.attr d Cochain.x
  boundary : ∀ d, a.attr d Cochain.boundaryIndex = b.attr d Cochain.boundaryIndex
  upper : ∀ d, a.attr d Cochain.upperIndex = b.attr d Cochain.upperIndex ∧
    a.attr d Cochain.sharedCoboundaries = b.attr d Cochain.sharedCoboundaries
  lower : down = true → ∀ d, a.attr d Cochain.lowerIndex = b.attr d Cochain.lowerIndex ∧
    a.attr d Cochain.sharedBoundaries = b.attr d Cochain.sharedBoundaries

end Verif
