import Verif.Model.Embed
import Verif.Spec.CellNet

/-!
# Specification of `EdgeCIN0`
-/

namespace Verif

variable {𝕜 R : Type} [Field 𝕜] [AddCommMonoid R] [Module 𝕜 R]

/-- The network can run: two levels per layer, and a network for the 2-cells for each layer but the last one, if it is
used. -/
structure EdgeNet.Fits (net : EdgeNet R (CINLevel 𝕜 R)) : Prop where
  layers : net.convs ≠ []
  levels : ∀ conv ∈ net.convs, conv.length = 2
  tops : net.includeTop = true → net.updateTop = true → net.topNNs.length + 1 = net.convs.length
  readout : net.readout = "sum" ∨ net.readout = "mean"

/-- What layer `i` does in each dimension: vertices and edges as in CIN, where edges see the features of 2-cells only if
these are included; 2-cells go through their own network if they are included and updated, but not in the last layer. -/
def EdgeNet.rules (net : EdgeNet R (CINLevel 𝕜 R)) (i : Nat) (conv : List (CINLevel 𝕜 R)) : Nat → Rule R
  | 0 => rulesOf CINLevel.rule conv 0
  | 1 =>
    if net.includeTop then rulesOf CINLevel.rule conv 1
    else { rulesOf CINLevel.rule conv 1 with up := fun x _ => (rulesOf CINLevel.rule conv 1).up x none }
  | _ => { up := fun _ _ => 0, down := fun _ _ => 0, bnd := fun _ => 0,
           new := fun x _ _ _ =>
             if net.includeTop = true ∧ net.updateTop = true ∧ i + 1 < net.convs.length then
               (net.topNNs[i]?.getD id) x
             else x }

/-- The rules of the layers. -/
def EdgeNet.allRules (net : EdgeNet R (CINLevel 𝕜 R)) : List (Nat → Rule R) := net.convs.zipIdx.map fun p => net.rules p.2 p.1

/-- The prediction for a complex: only vertices and edges are pooled. -/
def EdgeNet.predict (net : EdgeNet R (CINLevel 𝕜 R)) (v : View R) : R :=
  net.lin2 (net.act (net.lin1 (((List.range 2).map fun d => poolOf 𝕜 net.readout
    (v.final net.jump (v.run 2 true net.allRules) d)).sum)))

/-- The prediction for cells `K` with features `h`. -/
def EdgeNet.predictOn (net : EdgeNet R (CINLevel 𝕜 R)) (down : Bool) (K : Cells) (h : Nat → Finset Nat → R) : R :=
  net.lin2 (net.act (net.lin1 (((List.range 2).map fun d => poolSet 𝕜 net.readout (K d)
    (jumpOf net.jump (K.run down 2 h net.allRules) d)).sum)))

/-- Views that agree in what `EdgeCIN0` may look at: features and adjacencies of vertices and edges, and the features of
the 2-cells when `top`. -/
structure EdgeAlike (top : Bool) (v w : View R) : Prop where
  X : ∀ d ≤ 1, v.X d = w.X d
  rows : top = true → v.X 2 = w.X 2
  up : ∀ d ≤ 1, v.up d = w.up d
  down : ∀ d ≤ 1, v.down d = w.down d

end Verif
