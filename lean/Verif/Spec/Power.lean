import Verif.Spec.RingIso
import Verif.Spec.GraphNets

/-!
# Specification of the expressive power on ring-lifted graphs
-/

namespace Verif

variable {R L : Type}

/-- The edge index lists every edge once in each direction, as the datasets do. -/
structure Simple (edges : List (Nat × Nat)) : Prop where
  once : edges.Nodup
  both : ∀ u v, (u, v) ∈ edges → (v, u) ∈ edges

/-- The graph as the graph baselines get it. -/
def RGraph.data (G : RGraph R L) : GData R where
  x := G.x
  edges := G.edges

/-- There are `n` induced cycles of `k` vertices: `reps` lists one way to go round each of them. -/
def RingCount (edges : List (Nat × Nat)) (k n : Nat) : Prop :=
  ∃ reps : List (List Nat), reps.length = n ∧ reps.Pairwise (fun a b => ¬ a.Perm b) ∧
    (∀ r ∈ reps, r.length = k ∧ IsRing edges r) ∧
    ∀ r, r.length = k → IsRing edges r → ∃ r' ∈ reps, r'.Perm r

end Verif
