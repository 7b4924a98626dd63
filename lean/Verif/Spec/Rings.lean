import Verif.Spec.Lifting
import Verif.Model.Rings

/-!
# Specification of ring liftings

Nothing here is used by the model of the code.
-/

namespace Verif

/-- Place `j` follows place `i` on a cycle of length `n`. -/
def Follows (n i j : Nat) : Prop := j = i + 1 ∨ (i + 1 = n ∧ j = 0)

instance (n i j : Nat) : Decidable (Follows n i j) := by unfold Follows; infer_instance

/-- `r` lists the vertices of an induced cycle of the graph, in the order of the cycle: any two vertices
of it are joined exactly if they follow one another. -/
structure IsRing (edges : List (Nat × Nat)) (r : List Nat) : Prop where
  long : 3 ≤ r.length
  nodup : r.Nodup
  joined : ∀ i j u v, r[i]? = some u → r[j]? = some v →
    (Joined edges u v ↔ Follows r.length i j ∨ Follows r.length j i)

/-- The contract of graph-tool: for `k ≥ 3` the isomorphisms are exactly the induced cycles of length
`k`, in every rotation and direction, in any order; a set is iterated in some order. -/
structure RingLib.Ok (lib : RingLib) : Prop where
  isos : ∀ edges k r, 3 ≤ k → (r ∈ lib.isos edges k ↔ r.length = k ∧ IsRing edges r)
  order : ∀ l, (lib.order l).Perm l

/-- No column of the edge index is a loop. -/
def NoLoops (edges : List (Nat × Nat)) : Prop := ∀ e ∈ edges, e.1 ≠ e.2

/-- The features of the two directions (and of all repetitions) of an edge agree. -/
def Agree {F : Type} (edges : List (Nat × Nat)) (attr : List F) : Prop :=
  ∀ (i j : Nat) (e e' : Nat × Nat), edges[i]? = some e → edges[j]? = some e' →
    (e = e' ∨ e = e'.swap) → attr[i]? = attr[j]?

/-- `f` is a face of `c`: all its vertices are vertices of `c`. For cells of neighbouring dimensions of a
ring complex: a vertex of an edge, an edge of the graph with both ends on the ring. -/
def OnCell (f c : List Nat) : Prop := f ⊆ c

end Verif
