import Verif.Spec.RingNets
import Verif.Spec.RingProcess

/-!
# Parameters of the ring models that pass the label on
-/

namespace Verif

variable {𝕜 R : Type} [Field 𝕜] [AddCommMonoid R] [Module 𝕜 R]

/-- A layer of a SparseCIN with coboundaries whose linear maps add up their inputs; `act` is the nonlinearity. -/
def addLevel (act : R → R) : SparseLevel 𝕜 R where
  msgUp := .withAttr fun x a => act (x + a)
  msgBoundary := id
  updateUp := act
  updateBoundary := act
  combine a b := act (a + b)
  eps1 := 0
  eps2 := 0

/-- Such a RingSparseCIN; `a` and `b` are the parameters of the last linear map. -/
def addNet (act : R → R) (layers : Nat) (a : 𝕜) (b : R) : RingNet R (SparseLevel 𝕜 R) where
  initLayer := id
  convs := List.replicate layers (List.replicate 3 (addLevel act))
  maxDim := 2
  lin1 x := a • x + b

/-- Such a RingGIN with `layers + 1` layers. -/
def addGIN (act : R → R) (layers : Nat) (a : 𝕜) (b : R) : RingGIN 𝕜 R where
  initLinear := id
  conv1 := ⟨act, 0⟩
  convs := List.replicate layers ⟨act, 0⟩
  act := act
  lin1 x := a • x + b

end Verif
