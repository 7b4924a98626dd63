import Verif.Model.Dropout
import Mathlib.Algebra.BigOperators.Ring.Finset
import Mathlib.Algebra.Module.LinearMap.Basic
import Mathlib.Algebra.Module.BigOperators

/-!
# Specification: expectations over masks
-/

namespace Verif

variable {𝕜 ι κ V W : Type} [Field 𝕜]

/-- The probability that exactly the entries marked by `m` are kept, if each one is dropped with probability `p`
independently of the others. -/
def maskWeight [Fintype κ] (p : 𝕜) (m : κ → Bool) : 𝕜 := ∏ k, if m k then 1 - p else p

/-- The expected value of a vector that depends on the mask. -/
def expect [Fintype κ] [DecidableEq κ] [AddCommMonoid V] [Module 𝕜 V] (p : 𝕜) (f : (κ → Bool) → V) : V :=
  ∑ m, maskWeight p m • f m

/-- The entries of `D` tensors of `N` rows, as a mask; it does not matter what it says elsewhere. -/
def spread {D N : Nat} (m : Fin D × Fin N × ι → Bool) : Mask ι := fun d r i =>
  if h : d < D ∧ r < N then m (⟨d, h.1⟩, ⟨r, h.2⟩, i) else false

/-- `torch.nn.Linear`: a linear map and a bias. -/
def IsAffine (𝕜 : Type) [Field 𝕜] [AddCommGroup V] [Module 𝕜 V] [AddCommGroup W] [Module 𝕜 W] (f : V → W) : Prop :=
  ∃ (A : V →ₗ[𝕜] W) (b : W), ∀ x, f x = A x + b

/-- The rate of a dropout is a probability below 1. -/
def DropConf.Proper [LinearOrder 𝕜] (conf : DropConf 𝕜) : Prop := 0 ≤ conf.rate ∧ conf.rate < 1

/-- With dropout, `drop` raises what `plain` raises, and otherwise gives as many rows, each of which has the row without
dropout as its expected value. -/
def Unbiased [Fintype ι] [DecidableEq ι] (p : 𝕜) (D N : Nat) (drop : Mask ι → Py (List (ι → 𝕜)))
    (plain : Py (List (ι → 𝕜))) : Prop :=
  (∀ e, plain = .error e → ∀ m, drop m = .error e) ∧
    ∀ out, plain = .ok out → out.length ≤ N → ∃ f : (Fin D × Fin N × ι → Bool) → List (ι → 𝕜),
      (∀ m, drop (spread m) = .ok (f m) ∧ (f m).length = out.length) ∧
      ∀ r row, out[r]? = some row → expect p (fun m => (f m).getD r 0) = row

end Verif
