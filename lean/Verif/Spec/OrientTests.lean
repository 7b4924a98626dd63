import Verif.Spec.Adjacency
import Verif.Model.OrientTests

/-!
# Specification vocabulary for the tests of the oriented networks
-/

namespace Verif

/-- Any two different columns of the matrix have at most one row in common, up to cancellation, as the columns of the
boundary matrix of a regular complex. -/
def SimpleColumns (B : Mat) : Prop :=
  ∀ i j, i < B.cols → j < B.cols → i ≠ j → common B i j = 0 ∨ common B i j = 1 ∨ common B i j = -1

/-- Some two different columns have something in common. -/
def SomeMeet (B : Mat) : Prop := ∃ i j, i < B.cols ∧ j < B.cols ∧ i ≠ j ∧ common B i j ≠ 0

/-- The matrices fit `n` edges: vertices by edges, and edges by 2-cells. -/
structure FitEdges (B1 B2 : Mat) (n : Nat) : Prop where
  cols : B1.cols = n
  rows : B2.rows = n
  lower : SimpleColumns B1
  upper : SimpleColumns B2.transpose

/-- A list of `n` signs. -/
def IsSigns (diag : List Int) (n : Nat) : Prop := diag.length = n ∧ ∀ v ∈ diag, v = 1 ∨ v = -1

/-- The sign of every edge: `-1` where it is reversed. -/
def signOf (diag : List Int) (i : Nat) : Int := diag[i]?.getD 1

/-- The network has layers and a known readout. -/
structure OrientNet.Runs {R : Type} (net : OrientNet R) : Prop where
  layers : net.convs ≠ []
  readout : net.readout = "sum" ∨ net.readout = "mean"

end Verif
