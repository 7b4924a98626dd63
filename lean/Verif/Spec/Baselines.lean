import Verif.Spec.CellNet

/-!
# Specification of the baselines on complexes: `MessagePassingAgnostic` and `Dummy`
-/

namespace Verif

variable {R : Type} [AddCommMonoid R]

/-- The network can run. -/
structure AgnosticNet.Fits (net : AgnosticNet R) : Prop where
  lin0s : net.lin0s.length = net.maxDim + 1
  readout : net.readout = "sum" ∨ net.readout = "mean"

/-- The map of the cells of dimension `d` before pooling. -/
def AgnosticNet.first (net : AgnosticNet R) (d : Nat) (r : R) : R := net.act ((net.lin0s[d]?.getD id) r)

/-- What `MessagePassingAgnostic` predicts for the features `X d` of the cells of dimension `d`: nothing else of a
complex matters. Dimensions without cells count, with the bias of `lin1`. -/
def AgnosticNet.predict (𝕜 : Type) [Field 𝕜] [Module 𝕜 R] (net : AgnosticNet R) (X : Nat → List R) : R :=
  net.lin2 ((List.range (net.maxDim + 1)).map fun d =>
    net.act (net.lin1 (poolOf 𝕜 net.readout ((X d).map (net.first d))))).sum

/-- The same for cells `K` with features `h`. -/
def AgnosticNet.predictOn (𝕜 : Type) [Field 𝕜] [Module 𝕜 R] (net : AgnosticNet R) (K : Cells) (h : Nat → Finset Nat → R) :
    R :=
  net.lin2 ((List.range (net.maxDim + 1)).map fun d =>
    net.act (net.lin1 (poolSet 𝕜 net.readout (K d) fun s => net.first d (h d s)))).sum

/-- The features of the cells `K` after a layer of `Dummy`: a cell adds, for every other cell of a coface, the features
of the two, and likewise (when `down`) for every other cell around a face; cells above dimension 2 stay. -/
def Cells.add (K : Cells) (down : Bool) (h : Nat → Finset Nat → R) (d : Nat) (s : Finset Nat) : R :=
  if d ≤ 2 then
    h d s + (∑ t ∈ K.cofacesOf d s, ∑ u ∈ (K d).filter (fun u => u ⊆ t ∧ u ≠ s), (h d u + h (d + 1) t)) +
      (if down then ∑ f ∈ K.facesOf d s, ∑ u ∈ (K d).filter (fun u => f ⊆ u ∧ u ≠ s), (h d u + h (d - 1) f) else 0)
  else h d s

/-- What `Dummy` predicts for cells `K` with features `h`: the sum over the dimensions up to 2, whatever the dimension
of the network. -/
def DummyNet.predictOn (𝕜 : Type) [Field 𝕜] [Module 𝕜 R] (net : DummyNet R) (down : Bool) (K : Cells)
    (h : Nat → Finset Nat → R) : R :=
  net.lin ((List.range 3).map fun d => poolSet 𝕜 net.readout (K d) ((K.add down)^[net.layers] h d)).sum

end Verif
