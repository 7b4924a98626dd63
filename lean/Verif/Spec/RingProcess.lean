import Verif.Spec.Lifting
import Verif.Spec.Rings
import Verif.Spec.Runs

/-!
# Specification of the complexes of the ring datasets
-/

namespace Verif

variable {R L : Type}

/-- The edges of the cycle `0, 1, …, n-1` as sorted lists. -/
def cycleEdges (n : Nat) : List (List Nat) := (List.range (n - 1)).map (fun i => [i, i + 1]) ++ [[0, n - 1]]

/-- The cells of a cycle with a disc: `E` lists the edges, `r` the vertices of the 2-cell. -/
def discCells (n : Nat) (E : List (List Nat)) (r : List Nat) : Nat → List (List Nat)
  | 0 => (List.range n).map fun v => [v]
  | 1 => E
  | 2 => [r]
  | _ => []

/-- The complex is a cycle of `n` vertices with one 2-cell; the vertices have the rows `x`, the other cells zero rows,
and vertex 0 is marked. -/
structure IsDisc [Zero R] (comp : Complex R L) (n : Nat) (E : List (List Nat)) (r : List Nat) (x : List R) : Prop where
  ready : comp.Ready
  lifts : LiftsTo comp (discCells n E r) 3 OnCell false
  nodes : comp.attr 0 Cochain.x = some x
  size : x.length = n
  edges : comp.attr 1 Cochain.x = some (List.replicate n 0)
  ring : comp.attr 2 Cochain.x = some [0]
  mask : comp.attr 0 Cochain.mask = some (true :: List.replicate (n - 1) false)

end Verif
