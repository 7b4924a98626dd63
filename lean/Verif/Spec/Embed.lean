import Verif.Spec.Runs
import Verif.Model.Embed
import Mathlib.Data.List.Rotate

/-!
# Specification vocabulary for the embedding networks
-/

namespace Verif

variable {R L : Type}

/-- The cells without what they know about the dimension above. -/
def Cochain.noUpper (c : Cochain R L) : Cochain R L :=
  { c with upperIndex := none, sharedCoboundaries := none, upperOrient := none, numCellsUpAttr := none }

/-- Two complexes with the same vertices and edges; what the edges know about 2-cells may differ, and
so may everything about 2-cells and beyond, including whether there are any. -/
structure SameGraph (a b : Complex R L) : Prop where
  dim : min 1 b.dimension = min 1 a.dimension
  vertices : b.cochains[0]? = a.cochains[0]?
  edges : (b.cochains[1]?).map Cochain.noUpper = (a.cochains[1]?).map Cochain.noUpper

/-- Edge `e` of the incidence `b1` has exactly the two end points `u` and `v`. -/
def HasEnds (b1 : List (Nat × Nat)) (e : Nat) (uv : Nat × Nat) : Prop :=
  ((b1.filter fun p => p.2 == e).map Prod.fst).Perm [uv.1, uv.2]

/-- The boundary of 2-cell `r` in the incidence `b2` is the cycle through the vertices `cyc` in this
order: its edges join every vertex of the cycle with the next one, and the last with the first. -/
def IsCycle (b1 b2 : List (Nat × Nat)) (r : Nat) (cyc : List Nat) : Prop :=
  ∃ es : List Nat, ((b2.filter fun p => p.2 == r).map Prod.fst).Perm es ∧
    List.Forall₂ (HasEnds b1) es (cyc.zip (cyc.rotate 1))

end Verif
