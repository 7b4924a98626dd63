import Verif.Model.TrainMode
import Verif.Model.Experiment

/-!
# Experiments with networks: what a training step does to the state (exp/train_utils.py:57-71, exp/run_exp.py:360-478)
-/

namespace Verif

variable {𝕜 R L S : Type}

/-! ### Running statistics -/

/-- How `BatchNorm1d` (external contract) moves its running mean and variance: from the number of rows, the old value
and the statistic of the rows. -/
structure Momentum (R : Type) where
  mean : Nat → R → R → R
  var : Nat → R → R → R

/-- A normalisation after it has seen some rows in training mode. `BatchNorm1d` leaves its statistics as they are when
there are no rows. -/
def NormNet.after (𝕜 : Type) [Field 𝕜] [AddCommMonoid R] [Module 𝕜 R] (mo : Momentum R) (n : NormNet R)
    (rows : List R) : NormNet R :=
  match n with
  | .rowwise f => .rowwise f
  | .batch dev scale runMean runVar =>
    if rows = [] then .batch dev scale runMean runVar
    else
      let mean := aggMean (𝕜 := 𝕜) rows
      let var := aggMean (𝕜 := 𝕜) (rows.map fun x => dev x mean)
      .batch dev scale (mo.mean rows.length runMean mean) (mo.var rows.length runVar var)

/-- An update network after a pass in training mode. -/
def UpdateNet.after (𝕜 : Type) [Field 𝕜] [AddCommMonoid R] [Module 𝕜 R] (mo : Momentum R) (u : UpdateNet R)
    (rows : List R) : Py (UpdateNet R) := do
  let a ← u.norm1.train 𝕜 (rows.map u.lin1)
  return { u with norm1 := u.norm1.after 𝕜 mo (rows.map u.lin1)
                  norm2 := u.norm2.after 𝕜 mo ((a.map u.act1).map u.lin2) }

/-- A layer of SparseCIN after a pass in training mode (mp/layers.py:184-199). -/
def SparseTrain.after [Field 𝕜] [AddCommMonoid R] [Module 𝕜 R] (mo : Momentum R) (l : SparseTrain 𝕜 R)
    (p : MPParams R) : Py (SparseTrain 𝕜 R) := do
  let out ← propagate l.eval.cfg p.upIndex p.downIndex p.boundaryIndex p.x (some p.upAttr) none
    p.boundaryAttr
  let x := p.x.getD []
  let up ← addScaled l.eps1 out.1 x
  let bnd ← addScaled l.eps2 out.2.2 x
  let up' ← l.updateUp.train 𝕜 up
  let bnd' ← l.updateBoundary.train 𝕜 bnd
  let both ← zipRows l.lin up' bnd'
  let u ← l.updateUp.after 𝕜 mo up
  let b ← l.updateBoundary.after 𝕜 mo bnd
  return { l with updateUp := u, updateBoundary := b, norm := l.norm.after 𝕜 mo both }

/-- A layer of CIN++ after a pass in training mode (mp/layers.py:243-260). -/
def PPTrain.after [Field 𝕜] [AddCommMonoid R] [Module 𝕜 R] (mo : Momentum R) (l : PPTrain 𝕜 R)
    (p : MPParams R) : Py (PPTrain 𝕜 R) := do
  let out ← propagate l.eval.cfg p.upIndex p.downIndex p.boundaryIndex p.x (some p.upAttr) none
    p.boundaryAttr
  let x := p.x.getD []
  let up ← addScaled l.eps1 out.1 x
  let down ← addScaled l.eps2 out.2.1 x
  let bnd ← addScaled l.eps3 out.2.2 x
  let up' ← l.updateUp.train 𝕜 up
  let down' ← l.updateDown.train 𝕜 down
  let bnd' ← l.updateBoundary.train 𝕜 bnd
  let ud ← PPLevel.forward.zipRowsWith Prod.mk up' down'
  let all ← PPLevel.forward.zipRowsWith (fun ud b => l.lin ud.1 ud.2 b) ud bnd'
  let u ← l.updateUp.after 𝕜 mo up
  let d ← l.updateDown.after 𝕜 mo down
  let b ← l.updateBoundary.after 𝕜 mo bnd
  return { l with updateUp := u, updateDown := d, updateBoundary := b, norm := l.norm.after 𝕜 mo all }

/-- The layers of a convolution after a pass; those of dimensions that the data does not have are not used. -/
def levelsAfter {Lt : Type} (after : Lt → MPParams R → Py Lt) : List Lt → List (MPParams R) → Py (List Lt)
  | levels, [] => .ok levels
  | [], _ :: _ => .error .index
  | l :: levels, p :: ps => do
    let l' ← after l p
    let rest ← levelsAfter after levels ps
    return l' :: rest

/-- All layers after a pass (mp/models.py:199-207). -/
def convsAfter {Lt : Type} (params : Complex R L → Py (List (MPParams R))) (forward : Lt → MPParams R → Py (List R))
    (after : Lt → MPParams R → Py Lt) : Complex R L → List (List Lt) → Py (List (List Lt))
  | _, [] => .ok []
  | data, levels :: rest => do
    let ps ← params data
    let levels' ← levelsAfter after levels ps
    let xs ← convForward forward levels ps
    let data ← data.setXs (xs.map some)
    let rest' ← convsAfter params forward after data rest
    return levels' :: rest'

/-- A network after a pass in training mode. -/
def SparseNet.after {Lt : Type} (forward : Lt → MPParams R → Py (List R)) (after : Lt → MPParams R → Py Lt)
    (net : SparseNet R Lt) (data : Complex R L) : Py (SparseNet R Lt) := do
  let convs ← convsAfter (fun data => data.getAllCochainParams net.maxDim true false) forward after data net.convs
  return { net with convs := convs }

/-! ### Training and evaluation of a network -/

/-- The loss of a network on a batch (exp/train_utils.py:58-68); `loss` is the criterion on predictions and labels. -/
def lossOn {Lv : Type} (𝕜 : Type) [Field 𝕜] [AddCommMonoid R] [Module 𝕜 R] (level : Lv → MPParams R → Py (List R))
    (loss : List R → List L → Py ℚ) (net : SparseNet R Lv) (batch : Complex R L) : Py ℚ := do
  let pred ← net.forward 𝕜 level batch
  let y ← batch.targets
  loss pred y

/-- A kind of layers: a layer in training mode, the layer after a pass, and the layer in evaluation mode. -/
structure LayerKind (R Lt Lv : Type) where
  forward : Lt → MPParams R → Py (List R)
  after : Lt → MPParams R → Py Lt
  eval : Lt → Lv
  level : Lv → MPParams R → Py (List R)

/-- The layers of SparseCIN. -/
def sparseKind [Field 𝕜] [AddCommMonoid R] [Module 𝕜 R] (mo : Momentum R) :
    LayerKind R (SparseTrain 𝕜 R) (SparseLevel 𝕜 R) :=
  ⟨SparseTrain.forward, SparseTrain.after mo, SparseTrain.eval, SparseLevel.forward⟩

/-- The layers of CIN++. -/
def ppKind [Field 𝕜] [AddCommMonoid R] [Module 𝕜 R] (mo : Momentum R) :
    LayerKind R (PPTrain 𝕜 R) (PPLevel 𝕜 R) :=
  ⟨PPTrain.forward, PPTrain.after mo, PPTrain.eval, PPLevel.forward⟩

/-- An experiment with a network. `S` is the state of the model, the optimiser, the scheduler and the random number
generators. `net s` is the network with the parameters and the running statistics of the state. `learn s net f` is the
state after lines 57 and 70-71 of exp/train_utils.py: the gradient is that of the loss `f` as a function of the state,
and `net` is the network with its new running statistics. `order` gives the ids in the batches that the loader of a
split draws, `metric` the score that the evaluator gives. `arguments` has the other arguments; its functions `train` and
`eval` are not used. -/
structure Lab (R L S Lt : Type) where
  net : S → SparseNet R Lt
  learn : S → SparseNet R Lt → (S → Py ℚ) → S
  loss : List R → List L → Py ℚ
  metric : List R → Option (List L) → Py (Option ℚ)
  task : Task
  order : Split → S → List (List Nat)
  maxDim : Nat
  arguments : Trial S

/-- The batches of a split: `Collater` puts the complexes with the ids of a batch together
(data/data_loading.py:26-36). Simplified: all batches of an epoch are there before it begins. -/
def labBatches (maxDim : Nat) (data : List (Complex R L)) (ids : List (List Nat)) : Py (List (Complex R L)) :=
  mapE (fun batch => do
    let cs ← mapE (getAt data) batch
    fromComplexList cs maxDim) ids

/-- Lines 57-71 of exp/train_utils.py. The networks of this file are not given graphs. -/
def labStep {Lt Lv : Type} [AddCommMonoid R] (𝕜 : Type) [Field 𝕜] [Module 𝕜 R] (kind : LayerKind R Lt Lv)
    (lab : Lab R L S Lt) (s : S) :
    LoaderBatch R L → Py (S × ℚ)
  | .graphs _ => .error .attribute
  | .complexes batch => do
    let l ← lossOn 𝕜 kind.forward lab.loss (lab.net s) batch
    let net ← (lab.net s).after kind.forward kind.after batch
    return (lab.learn s net fun s' => lossOn 𝕜 kind.forward lab.loss (lab.net s') batch, l)

/-- `train` (exp/train_utils.py:16-74) on the training data. -/
def labTrain {Lt Lv : Type} [AddCommMonoid R] (𝕜 : Type) [Field 𝕜] [Module 𝕜 R] (kind : LayerKind R Lt Lv)
    (lab : Lab R L S Lt)
    (data : Split → List (Complex R L)) (s : S) : Py (S × List ℚ) := do
  let batches ← labBatches lab.maxDim (data .train) (lab.order .train s)
  train lab.task (labStep 𝕜 kind lab) s (batches.map .complexes)

/-- `eval` (exp/train_utils.py:92-144) on a split; the mean loss is not used. -/
def labEval {Lt Lv : Type} [AddCommMonoid R] (𝕜 : Type) [Field 𝕜] [Module 𝕜 R] (kind : LayerKind R Lt Lv)
    (lab : Lab R L S Lt)
    (data : Split → List (Complex R L)) (split : Split) (s : S) : Py (Option ℚ) := do
  let batches ← labBatches lab.maxDim (data split) (lab.order split s)
  let r ← evalModel lab.task (((lab.net s).evalMode kind.eval).forward 𝕜 kind.level) Complex.targets lab.loss lab.metric
    batches
  return r.1

/-- The experiment (exp/run_exp.py:360-478) with a network on the three splits. -/
def Lab.trial {Lt Lv : Type} [AddCommMonoid R] (𝕜 : Type) [Field 𝕜] [Module 𝕜 R] (kind : LayerKind R Lt Lv)
    (lab : Lab R L S Lt)
    (data : Split → List (Complex R L)) : Trial S :=
  { lab.arguments with train := labTrain 𝕜 kind lab data, eval := labEval 𝕜 kind lab data }

end Verif
