import Verif.Model.TrainMode
import Verif.Spec.Models

/-!
# What training mode computes: evaluation with the statistics of the batch
-/

namespace Verif

variable {𝕜 R L : Type}

/-- The normalisation depends on the rows of the batch. -/
def NormNet.isBatch : NormNet R → Bool
  | .rowwise _ => false
  | .batch .. => true

/-- Some normalisation of the network depends on the rows of the batch. -/
def UpdateNet.isBatch (u : UpdateNet R) : Bool := u.norm1.isBatch || u.norm2.isBatch

/-- Some normalisation of the layer depends on the rows of the batch. -/
def SparseTrain.isBatch (l : SparseTrain 𝕜 R) : Bool :=
  l.updateUp.isBatch || l.updateBoundary.isBatch || l.norm.isBatch

/-- Some normalisation of the layer depends on the rows of the batch. -/
def PPTrain.isBatch (l : PPTrain 𝕜 R) : Bool :=
  l.updateUp.isBatch || l.updateDown.isBatch || l.updateBoundary.isBatch || l.norm.isBatch

/-- In some dimension where a layer uses statistics of the batch, the complexes together have exactly one
cell. -/
def LonelyCell {Lt : Type} (isBatch : Lt → Bool) (net : SparseNet R Lt) (cs : List (Complex R L)) (mB : Nat) :
    Prop :=
  ∃ conv ∈ net.convs, ∃ d l, conv[d]? = some l ∧ isBatch l = true ∧ d ≤ mB ∧
    (cs.map (Complex.cellsIn d)).sum = 1

section
variable [Field 𝕜] [AddCommMonoid R] [Module 𝕜 R]

/-- Sum divided by the number of rows. -/
def meanOf (𝕜 : Type) [Field 𝕜] [Module 𝕜 R] (rows : List R) : R :=
  ((max rows.length 1 : Nat) : 𝕜)⁻¹ • rows.sum

/-- The normalisation of one row, with the statistics of some rows. -/
def NormNet.freeze (𝕜 : Type) [Field 𝕜] [Module 𝕜 R] : NormNet R → List R → R → R
  | .rowwise f, _ => f
  | .batch dev scale _ _, rows =>
    scale (meanOf 𝕜 rows) (meanOf 𝕜 (rows.map fun x => dev x (meanOf 𝕜 rows)))

/-- The network on one row, with the statistics it meets on some rows. -/
def UpdateNet.freeze (𝕜 : Type) [Field 𝕜] [Module 𝕜 R] (u : UpdateNet R) (rows : List R) : R → R :=
  let first := fun x => u.lin2 (u.act1 (u.norm1.freeze 𝕜 (rows.map u.lin1) (u.lin1 x)))
  fun x => u.act2 (u.norm2.freeze 𝕜 (rows.map first) (first x))

/-- What a rule gives for all cells of dimension `d` of some complexes. -/
def rowsOf (vs : List (View R)) (r : Rule R) (d : Nat) : List R :=
  vs.flatMap fun v => (List.range (v.X d).length).map (v.newRow r true d)

/-- The layer with the statistics of the cells of dimension `d` of some complexes. -/
def SparseTrain.freeze (l : SparseTrain 𝕜 R) (vs : List (View R)) (d : Nat) : SparseLevel 𝕜 R :=
  let rows := fun new => rowsOf vs { l.eval.rule with new := new } d
  let up := l.updateUp.freeze 𝕜 (rows fun x u _ _ => u + (1 + l.eps1) • x)
  let bnd := l.updateBoundary.freeze 𝕜 (rows fun x _ _ b => b + (1 + l.eps2) • x)
  { msgUp := l.msgUp
    msgBoundary := l.msgBoundary
    updateUp := up
    updateBoundary := bnd
    combine := fun a b => l.act (l.norm.freeze 𝕜
      (rows fun x u _ b => l.lin (up (u + (1 + l.eps1) • x)) (bnd (b + (1 + l.eps2) • x))) (l.lin a b))
    eps1 := l.eps1
    eps2 := l.eps2 }

/-- The layer with the statistics of the cells of dimension `d` of some complexes. -/
def PPTrain.freeze (l : PPTrain 𝕜 R) (vs : List (View R)) (d : Nat) : PPLevel 𝕜 R :=
  let rows := fun new => rowsOf vs { l.eval.rule with new := new } d
  let up := l.updateUp.freeze 𝕜 (rows fun x u _ _ => u + (1 + l.eps1) • x)
  let down := l.updateDown.freeze 𝕜 (rows fun x _ _ _ => (1 + l.eps2) • x)
  let bnd := l.updateBoundary.freeze 𝕜 (rows fun x _ _ b => b + (1 + l.eps3) • x)
  { msgUp := l.msgUp
    msgDown := l.msgDown
    msgBoundary := l.msgBoundary
    updateUp := up
    updateDown := down
    updateBoundary := bnd
    combine := fun a e b => l.act (l.norm.freeze 𝕜
      (rows fun x u _ b => l.lin (up (u + (1 + l.eps1) • x)) (down ((1 + l.eps2) • x))
        (bnd (b + (1 + l.eps3) • x))) (l.lin a e b))
    eps1 := l.eps1
    eps2 := l.eps2
    eps3 := l.eps3 }

/-- The layers one after the other, each with the statistics that it meets on the complexes. -/
def freezeConvs {Lt Lv : Type} (freeze : Lt → List (View R) → Nat → Lv) (rule : Lv → Rule R) (m : Nat) :
    List (View R) → List (List Lt) → List (List Lv)
  | _, [] => []
  | vs, levels :: rest =>
    let frozen := levels.mapIdx fun d l => freeze l vs d
    frozen :: freezeConvs freeze rule m (vs.map fun v => v.layer (rulesOf rule frozen) m true) rest

/-- The network with the statistics that it meets on the complexes. -/
def SparseNet.frozen {Lt Lv : Type} (freeze : Lt → List (View R) → Nat → Lv) (rule : Lv → Rule R)
    (net : SparseNet R Lt) (vs : List (View R)) : SparseNet R Lv where
  convs := freezeConvs freeze rule net.maxDim vs net.convs
  maxDim := net.maxDim
  jump := net.jump
  readout := net.readout
  readoutDims := net.readoutDims
  act := net.act
  lin1s := net.lin1s
  finalReadout := net.finalReadout
  lin2 := net.lin2

end

end Verif
