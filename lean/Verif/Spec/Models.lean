import Verif.Spec.View
import Verif.Model.Models

/-!
# Specification of predictions, on views

The prediction for one complex, cell by cell, with no batch in sight.
-/

namespace Verif

variable {𝕜 R : Type}

section
variable [AddCommMonoid R]

/-- The row of cell `c` of dimension `d` that goes to the pooling, given the views after each layer:
the row after the last layer, or the jumping knowledge of the rows after all layers. -/
def finalRow (jump : Option (List R → R)) (vs : List (View R)) (d c : Nat) : R :=
  match jump with
  | none => ((vs.getLast?).map fun w => rowOf (w.X d) c).getD 0
  | some f => f (vs.map fun w => rowOf (w.X d) c)

/-- The final rows of all cells of dimension `d`. -/
def View.final (v : View R) (jump : Option (List R → R)) (vs : List (View R)) (d : Nat) : List R :=
  (List.range (v.X d).length).map (finalRow jump vs d)

/-- Sum of rows, or sum divided by their number. -/
def poolOf (𝕜 : Type) [Field 𝕜] [Module 𝕜 R] (readout : String) (rows : List R) : R :=
  if readout = "mean" then ((max rows.length 1 : Nat) : 𝕜)⁻¹ • rows.sum else rows.sum

/-- The prediction of a SparseCIN or CIN++ network for a complex. -/
def SparseNet.predict {Lv : Type} (𝕜 : Type) [Field 𝕜] [Module 𝕜 R] (rule : Lv → Rule R)
    (net : SparseNet R Lv) (v : View R) : R :=
  net.lin2 (poolOf 𝕜 net.finalReadout (net.dims.map fun d =>
    net.act ((net.lin1s[d]?.getD id) (poolOf 𝕜 net.readout
      (v.final net.jump (v.run net.maxDim true (net.convs.map (rulesOf rule))) d)))))

/-- The prediction of a CIN network for a complex. -/
def CINNet.predict {Lv : Type} (𝕜 : Type) [Field 𝕜] [Module 𝕜 R] (rule : Lv → Rule R)
    (net : CINNet R Lv) (v : View R) : R :=
  net.lin2 (net.act (net.lin1 (((List.range (net.maxDim + 1)).map fun d => poolOf 𝕜 net.readout
    (v.final net.jump (v.run net.maxDim true (net.convs.map (rulesOf rule))) d)).sum)))

end

/-- The network can run: at least one layer, one level per dimension in each layer, one `lin1` per
dimension, known names of readouts, some dimension to read out. -/
structure SparseNet.Fits {Lv : Type} (net : SparseNet R Lv) : Prop where
  layers : net.convs ≠ []
  levels : ∀ conv ∈ net.convs, conv.length = net.maxDim + 1
  lin1s : net.lin1s.length = net.maxDim + 1
  readout : net.readout = "sum" ∨ net.readout = "mean"
  final : net.finalReadout = "sum" ∨ net.finalReadout = "mean"
  dims : net.dims ≠ []

/-- The network can run. -/
structure CINNet.Fits {Lv : Type} (net : CINNet R Lv) : Prop where
  layers : net.convs ≠ []
  levels : ∀ conv ∈ net.convs, conv.length = net.maxDim + 1
  readout : net.readout = "sum" ∨ net.readout = "mean"

end Verif
