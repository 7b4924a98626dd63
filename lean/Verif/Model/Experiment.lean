import Verif.Model.Complex
import Verif.Model.Lifting
import Mathlib.Data.Rat.Defs
import Mathlib.Algebra.Order.Field.Rat
import Mathlib.Algebra.Order.Group.Abs

/-!
# Training and evaluation (exp/train_utils.py, exp/run_exp.py:346-478)
-/

namespace Verif

variable {F L S P T : Type}

/-! ### One epoch of training -/

/-- The task types that the functions distinguish. -/
inductive Task
  | classification
  | binClassification
  | regression
  | mseRegression
  | isomorphism
  | other
  deriving DecidableEq

/-- What a loader yields: a batch of complexes, or a batch of graphs with its number of nodes. -/
inductive LoaderBatch (F L : Type)
  | complexes (batch : Complex F L)
  | graphs (rows : Nat)

/-- `batch.cochains[dim]`. -/
def Complex.cochainAt (c : Complex F L) (dim : Nat) : Py (Cochain F L) :=
  match c.cochains[dim]? with
  | some k => .ok k
  | none => .error .key

/-- `cochain.x.size(0)`. -/
def Cochain.rowsOfX (c : Cochain F L) : Py Nat :=
  match c.x with
  | some rows => .ok rows.length
  | none => .error .attribute

/-- `min(num_samples, num_cells)`. -/
def minSamples (n : Nat) : Option Nat → Py Nat
  | some m => .ok (min n m)
  | none => .error .type

/-- One round of the loop over the dimensions (exp/train_utils.py:39-40). -/
def samplesStep (batch : Complex F L) (n dim : Nat) : Py Nat := do
  let c ← batch.cochainAt dim
  let m ← c.numCells
  minSamples n m

/-- `num_samples` (exp/train_utils.py:37-43). -/
def numSamples : LoaderBatch F L → Py Nat
  | .complexes batch => do
    let c ← batch.cochainAt 0
    let n ← c.rowsOfX
    foldE (samplesStep batch) n (List.range' 1 batch.dimension)
  | .graphs rows => .ok rows

/-- The body of the loop (exp/train_utils.py:35-72). `step` stands for lines 57-71: the forward pass, the loss on the
targets that are not missing, the gradient and the step of the optimiser; it gives the new parameters and the loss.
The warnings are left out. -/
def trainBatch (step : S → LoaderBatch F L → Py (S × ℚ)) (acc : S × List ℚ) (batch : LoaderBatch F L) :
    Py (S × List ℚ) := do
  let n ← numSamples batch
  if n ≤ 1 then return acc
  else do
    let r ← step acc.1 batch
    return (r.1, acc.2 ++ [r.2])

/-- `train` (exp/train_utils.py:16-74): the parameters after the epoch and the loss curve. -/
def train (task : Task) (step : S → LoaderBatch F L → Py (S × ℚ)) (params : S) (loader : List (LoaderBatch F L)) :
    Py (S × List ℚ) :=
  match task with
  | .classification | .binClassification | .regression | .mseRegression => foldE (trainBatch step) (params, []) loader
  | .isomorphism | .other => .error .notImplemented

/-! ### Inference and evaluation -/

/-- `torch.cat` of the rows of the batches; `RuntimeError` for an empty list. -/
def catRows (l : List (List P)) : Py (List P) := if l = [] then .error .runtime else .ok l.flatten

/-- `infer` (exp/train_utils.py:77-89). -/
def infer {B : Type} (forward : B → Py (List P)) (loader : List B) : Py (List P) := do
  let preds ← mapE forward loader
  catRows preds

/-- The targets and the loss of a batch in `eval` (exp/train_utils.py:123-135); `loss` is the criterion of the task,
and `None(..)` is a `TypeError` for a task without one. -/
def evalTargets {B : Type} (task : Task) (targets : B → Py (List T)) (loss : List P → List T → Py ℚ) (batch : B)
    (pred : List P) : Py (List (List T) × List ℚ) :=
  match task with
  | .isomorphism => .ok ([], [])
  | .other => targets batch >>= fun _ => .error .type
  | _ => do
    let t ← targets batch
    let l ← loss pred t
    return ([t], [l])

/-- The body of the loop of `eval` (exp/train_utils.py:112-137), without the conversions to double precision. -/
def evalBatch {B : Type} (task : Task) (forward : B → Py (List P)) (targets : B → Py (List T))
    (loss : List P → List T → Py ℚ) (acc : List (List T) × List (List P) × List ℚ) (batch : B) :
    Py (List (List T) × List (List P) × List ℚ) := do
  let pred ← forward batch
  let tl ← evalTargets task targets loss batch pred
  return (acc.1 ++ tl.1, acc.2.1 ++ [pred], acc.2.2 ++ tl.2)

/-- `np.mean`, with NaN for an empty list (exp/train_utils.py:143). -/
def meanLoss (l : List ℚ) : Option ℚ := if l = [] then none else some (l.sum / l.length)

/-- `eval` (exp/train_utils.py:92-144): the metric and the mean loss. -/
def evalModel {B V : Type} (task : Task) (forward : B → Py (List P)) (targets : B → Py (List T))
    (loss : List P → List T → Py ℚ) (metric : List P → Option (List T) → Py V) (loader : List B) :
    Py (V × Option ℚ) := do
  let r ← foldE (evalBatch task forward targets loss) ([], [], []) loader
  let yPred ← catRows r.2.1
  let v ← metric yPred (if r.1 = [] then none else some r.1.flatten)
  return (v, meanLoss r.2.2)

/-! ### Metrics -/

/-- `torch.pdist`: the distances of all pairs, row by row. -/
def pdist {D : Type} (dist : P → P → D) : List P → List D
  | [] => []
  | p :: ps => ps.map (dist p) ++ pdist dist ps

/-- `Evaluator._isomorphism` (exp/train_utils.py:170-179) on predictions in double precision. -/
def isomorphismMetric {D : Type} [LT D] [DecidableLT D] (dist : P → P → D) (eps : D) (preds : List P) : Py ℚ :=
  if (pdist dist preds).length = 0 then .error .zeroDivision
  else .ok ((((pdist dist preds).filter fun d => decide (d < eps)).length : ℚ) / ((pdist dist preds).length : ℚ))

/-- The loop of `np.argmax` and `np.argmin` on floats: `better v best` says that `v` replaces the best value so far;
NaN (`none`) replaces every number and ends the search. -/
def argLoop (better : ℚ → ℚ → Bool) (best : ℚ) (place : Nat) : Nat → List (Option ℚ) → Nat
  | _, [] => place
  | i, none :: _ => i
  | i, some v :: rest =>
    if better v best then argLoop better v i (i + 1) rest else argLoop better best place (i + 1) rest

/-- `np.argmax` and `np.argmin`; `ValueError` for an empty array. -/
def argBest (better : ℚ → ℚ → Bool) : List (Option ℚ) → Py Nat
  | [] => .error .value
  | none :: _ => .ok 0
  | some v :: rest => .ok (argLoop better v 0 1 rest)

/-- `met.accuracy_score`: the share of equal entries; `ValueError` for arrays of different length. Simplified: also
for empty arrays. -/
def accuracyScore (yTrue yPred : List Nat) : Py ℚ :=
  if yTrue.length = yPred.length ∧ yTrue ≠ [] then
    .ok ((((yTrue.zip yPred).filter fun p => decide (p.1 = p.2)).length : ℚ) / (yTrue.length : ℚ))
  else .error .value

/-- `Evaluator._accuracy` (exp/train_utils.py:181-187). -/
def accuracyMetric (yPred : List (List (Option ℚ))) (yTrue : Option (List Nat)) : Py ℚ := do
  let classes ← mapE (argBest fun a b => decide (b < a)) yPred
  match yTrue with
  | none => .error .assertion
  | some yTrue => accuracyScore yTrue classes

/-- `met.mean_absolute_error` of arrays with one column; `ValueError` for arrays of different length. Simplified: also
for empty arrays. -/
def absoluteError (yTrue yPred : List ℚ) : Py ℚ :=
  if yTrue.length = yPred.length ∧ yTrue ≠ [] then
    .ok (((yTrue.zip yPred).map fun p => |p.1 - p.2|).sum / (yTrue.length : ℚ))
  else .error .value

/-- `Evaluator._mae` (exp/train_utils.py:198-204, without the check that there are predictions). -/
def maeMetric (yPred : List ℚ) : Option (List ℚ) → Py ℚ
  | none => .error .assertion
  | some yTrue => absoluteError yTrue yPred

/-- `batch.y` in `eval` (exp/train_utils.py:125-130); `AttributeError` without labels. -/
def Complex.targets (c : Complex F L) : Py (List L) :=
  match c.y with
  | some y => .ok y
  | none => .error .attribute

/-! ### The experiment -/

/-- The three splits. -/
inductive Split
  | train
  | valid
  | test
  deriving DecidableEq

/-- The schedulers of exp/run_exp.py:346-358. -/
inductive Scheduler
  | none
  | plateau
  | stepLR
  deriving DecidableEq

/-- An experiment: the arguments, and what `train`, `eval` and the scheduler do to the state of the model, the
optimiser and the scheduler. A score is a number or NaN (`none`). -/
structure Trial (S : Type) where
  epochs : Nat
  period : Nat
  minimize : Bool
  untrained : Bool
  earlyStop : Bool
  strongly : Bool
  hasTest : Bool
  scheduler : Scheduler
  train : S → Py (S × List ℚ)
  eval : Split → S → Py (Option ℚ)
  decay : S → Option ℚ → S
  lrLow : S → Bool

/-- The curves and the variable `train_perf`. -/
structure Curves where
  loss : List ℚ := []
  train : List (Option ℚ) := []
  valid : List (Option ℚ) := []
  test : List (Option ℚ) := []
  trainPerf : Option ℚ := none

/-- `epoch % args.train_eval_period == 0`. -/
def dividesPeriod (period epoch : Nat) : Py Bool := if period = 0 then .error .zeroDivision else .ok (epoch % period == 0)

/-- `epoch == 1 or epoch % args.train_eval_period == 0` (exp/run_exp.py:379). -/
def evaluatesTrain (period epoch : Nat) : Py Bool := if epoch = 1 then .ok true else dividesPeriod period epoch

/-- Lines 379-380 of exp/run_exp.py. -/
def nextTrainPerf (t : Trial S) (s : S) (old : Option ℚ) : Bool → Py (Option ℚ)
  | true => t.eval .train s
  | false => .ok old

/-- Lines 386-391 of exp/run_exp.py. -/
def testPerf (t : Trial S) (s : S) : Py (Option ℚ) := if t.hasTest then t.eval .test s else .ok none

/-- Lines 399-408 of exp/run_exp.py: the state after the scheduler, and whether the loop ends. -/
def schedule (t : Trial S) (s : S) (perf : Option ℚ) : S × Bool :=
  match t.scheduler with
  | .none => (s, false)
  | .plateau => (t.decay s perf, t.earlyStop && t.lrLow (t.decay s perf))
  | .stepLR => (t.decay s none, false)

/-- Lines 370-408 of exp/run_exp.py, one epoch. -/
def epochBody (t : Trial S) (s : S) (c : Curves) (epoch : Nat) : Py ((S × Curves) × Bool) := do
  let r ← t.train s
  let b ← evaluatesTrain t.period epoch
  let trainPerf ← nextTrainPerf t r.1 c.trainPerf b
  let validPerf ← t.eval .valid r.1
  let testScore ← testPerf t r.1
  return (((schedule t r.1 validPerf).1,
    { loss := c.loss ++ r.2, train := c.train ++ [trainPerf], valid := c.valid ++ [validPerf],
      test := c.test ++ [testScore], trainPerf := trainPerf }), (schedule t r.1 validPerf).2)

/-- The loop over the epochs (exp/run_exp.py:368-422); the listing of slowly changing parameters (lines 410-422) only
matters for the exception of its modulus. -/
def epochLoop (t : Trial S) : List Nat → S → Curves → Py (S × Curves)
  | [], s, c => .ok (s, c)
  | epoch :: rest, s, c => do
    let r ← epochBody t s c epoch
    if r.2 then return r.1
    else do
      let _ ← dividesPeriod t.period epoch
      epochLoop t rest r.1.1 r.1.2

/-- What an experiment reports (exp/run_exp.py:445-467). -/
structure Report where
  curves : Curves
  best : Nat
  bestTrain : Option ℚ
  bestValid : Option ℚ
  bestTest : Option ℚ
  lastTrain : Option ℚ
  lastValid : Option ℚ
  lastTest : Option ℚ

/-- `np.argmin(valid_curve)` or `np.argmax(valid_curve)` (exp/run_exp.py:424-427). -/
def bestEpoch (minimize : Bool) (valid : List (Option ℚ)) : Py Nat :=
  if minimize then argBest (fun a b => decide (a < b)) valid else argBest (fun a b => decide (b < a)) valid

/-- Lines 360-432 of exp/run_exp.py: the state, the curves and the best epoch. Without training the curves have one
NaN; the loss curve, which the report does not print, is left empty. -/
def trainingPhase (t : Trial S) (s : S) : Py (S × Curves × Nat) :=
  if t.untrained then .ok (s, { train := [none], valid := [none], test := [none] }, 0)
  else do
    let r ← epochLoop t (List.range' 1 t.epochs) s {}
    let best ← bestEpoch t.minimize r.2.valid
    return (r.1, r.2, best)

/-- Lines 438-440 of exp/run_exp.py: for the strongly regular graphs these two scores stay NaN. -/
def finalPerf (t : Trial S) (split : Split) (s : S) : Py (Option ℚ) :=
  if t.strongly then .ok none else t.eval split s

/-- `main` of exp/run_exp.py from line 360 on; writing the report to files is left out. -/
def runExp (t : Trial S) (s : S) : Py Report := do
  let r ← trainingPhase t s
  let lastTrain ← finalPerf t .train r.1
  let lastValid ← finalPerf t .valid r.1
  let lastTest ← testPerf t r.1
  let bestTrain ← getAt r.2.1.train r.2.2
  let bestValid ← getAt r.2.1.valid r.2.2
  let bestTest ← getAt r.2.1.test r.2.2
  return { curves := r.2.1, best := r.2.2, bestTrain := bestTrain, bestValid := bestValid, bestTest := bestTest,
           lastTrain := lastTrain, lastValid := lastValid, lastTest := lastTest }

end Verif
