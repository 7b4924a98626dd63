import Verif.Model.Models

/-!
# Networks in training mode

`train` calls `model.train()` (exp/train_utils.py:34): batch normalisation then uses the rows of the batch.
Dropout is left out: the networks are those with `dropout_rate = 0`, where `F.dropout` is the identity.
-/

namespace Verif

variable {𝕜 R L : Type}

/-- The classes that `get_graph_norm` returns (mp/nn.py:39-47). `rowwise` stands for `Identity` and
`LayerNorm`, which act on each row. `BatchNorm1d` (external contract) in training mode subtracts the mean of the
rows and divides by the root of their mean squared deviation, then scales and shifts: `dev x m` is the squared
deviation of a row, `scale m v x` the rest, `runMean` and `runVar` the statistics used in evaluation mode. -/
inductive NormNet (R : Type)
  | rowwise (f : R → R)
  | batch (dev : R → R → R) (scale : R → R → R → R) (runMean runVar : R)

/-- A normalisation in training mode. `BatchNorm1d` raises `ValueError` on exactly one row.
The update of the running statistics is `NormNet.after` in Model/Learn.lean. -/
def NormNet.train (𝕜 : Type) [Field 𝕜] [AddCommMonoid R] [Module 𝕜 R] (n : NormNet R) (rows : List R) :
    Py (List R) :=
  match n with
  | .rowwise f => .ok (rows.map f)
  | .batch dev scale _ _ =>
    if rows.length = 1 then .error .value
    else
      let mean := aggMean (𝕜 := 𝕜) rows
      let var := aggMean (𝕜 := 𝕜) (rows.map fun x => dev x mean)
      .ok (rows.map (scale mean var))

/-- A normalisation in evaluation mode. -/
def NormNet.eval : NormNet R → R → R
  | .rowwise f => f
  | .batch _ scale runMean runVar => scale runMean runVar

/-- `Sequential(Linear, graph_norm, act, Linear, graph_norm, act)` (mp/layers.py:304-323, 384-415). -/
structure UpdateNet (R : Type) where
  lin1 : R → R
  norm1 : NormNet R
  act1 : R → R
  lin2 : R → R
  norm2 : NormNet R
  act2 : R → R

/-- An update network in training mode. -/
def UpdateNet.train (𝕜 : Type) [Field 𝕜] [AddCommMonoid R] [Module 𝕜 R] (u : UpdateNet R) (rows : List R) :
    Py (List R) := do
  let a ← u.norm1.train 𝕜 (rows.map u.lin1)
  let b ← u.norm2.train 𝕜 ((a.map u.act1).map u.lin2)
  return b.map u.act2

/-- An update network in evaluation mode. -/
def UpdateNet.eval (u : UpdateNet R) (x : R) : R :=
  u.act2 (u.norm2.eval (u.lin2 (u.act1 (u.norm1.eval (u.lin1 x)))))

/-- A `SparseCINCochainConv` with the networks that `SparseCINConv` builds (mp/layers.py:284-332); `lin u b` is
the linear map of `combine_nn` on `cat([u, b])`. -/
structure SparseTrain (𝕜 R : Type) where
  msgUp : Msg R R R
  msgBoundary : R → R
  updateUp : UpdateNet R
  updateBoundary : UpdateNet R
  lin : R → R → R
  norm : NormNet R
  act : R → R
  eps1 : 𝕜
  eps2 : 𝕜

/-- The layer in evaluation mode. -/
def SparseTrain.eval (l : SparseTrain 𝕜 R) : SparseLevel 𝕜 R where
  msgUp := l.msgUp
  msgBoundary := l.msgBoundary
  updateUp := l.updateUp.eval
  updateBoundary := l.updateBoundary.eval
  combine u b := l.act (l.norm.eval (l.lin u b))
  eps1 := l.eps1
  eps2 := l.eps2

/-- `SparseCINCochainConv.forward` (mp/layers.py:184-199) in training mode. -/
def SparseTrain.forward [Field 𝕜] [AddCommMonoid R] [Module 𝕜 R] (l : SparseTrain 𝕜 R)
    (p : MPParams R) : Py (List R) := do
  let out ← propagate l.eval.cfg p.upIndex p.downIndex p.boundaryIndex p.x (some p.upAttr) none
    p.boundaryAttr
  let x := p.x.getD []
  let up ← addScaled l.eps1 out.1 x
  let bnd ← addScaled l.eps2 out.2.2 x
  let up ← l.updateUp.train 𝕜 up
  let bnd ← l.updateBoundary.train 𝕜 bnd
  let both ← zipRows l.lin up bnd
  let both ← l.norm.train 𝕜 both
  return both.map l.act

/-- A `CINppCochainConv` with the networks that `CINppConv` builds (mp/layers.py:360-426). -/
structure PPTrain (𝕜 R : Type) where
  msgUp : Msg R R R
  msgDown : Msg R R R
  msgBoundary : R → R
  updateUp : UpdateNet R
  updateDown : UpdateNet R
  updateBoundary : UpdateNet R
  lin : R → R → R → R
  norm : NormNet R
  act : R → R
  eps1 : 𝕜
  eps2 : 𝕜
  eps3 : 𝕜

/-- The layer in evaluation mode. -/
def PPTrain.eval (l : PPTrain 𝕜 R) : PPLevel 𝕜 R where
  msgUp := l.msgUp
  msgDown := l.msgDown
  msgBoundary := l.msgBoundary
  updateUp := l.updateUp.eval
  updateDown := l.updateDown.eval
  updateBoundary := l.updateBoundary.eval
  combine u d b := l.act (l.norm.eval (l.lin u d b))
  eps1 := l.eps1
  eps2 := l.eps2
  eps3 := l.eps3

/-- `CINppCochainConv.forward` (mp/layers.py:243-260) in training mode. -/
def PPTrain.forward [Field 𝕜] [AddCommMonoid R] [Module 𝕜 R] (l : PPTrain 𝕜 R)
    (p : MPParams R) : Py (List R) := do
  let out ← propagate l.eval.cfg p.upIndex p.downIndex p.boundaryIndex p.x (some p.upAttr) none
    p.boundaryAttr
  let x := p.x.getD []
  let up ← addScaled l.eps1 out.1 x
  let down ← addScaled l.eps2 out.2.1 x
  let bnd ← addScaled l.eps3 out.2.2 x
  let up ← l.updateUp.train 𝕜 up
  let down ← l.updateDown.train 𝕜 down
  let bnd ← l.updateBoundary.train 𝕜 bnd
  let ud ← PPLevel.forward.zipRowsWith Prod.mk up down
  let all ← PPLevel.forward.zipRowsWith (fun ud b => l.lin ud.1 ud.2 b) ud bnd
  let all ← l.norm.train 𝕜 all
  return all.map l.act

/-- The network in evaluation mode: `model.eval()` (exp/train_utils.py:81, 108). -/
def SparseNet.evalMode {Lt Lv : Type} (eval : Lt → Lv) (net : SparseNet R Lt) : SparseNet R Lv where
  convs := net.convs.map (List.map eval)
  maxDim := net.maxDim
  jump := net.jump
  readout := net.readout
  readoutDims := net.readoutDims
  act := net.act
  lin1s := net.lin1s
  finalReadout := net.finalReadout
  lin2 := net.lin2

end Verif
