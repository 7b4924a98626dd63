import Verif.Model.Config
import Mathlib.Data.List.Sort

/-!
# Metrics for rankings: average precision and ROC-AUC (exp/train_utils.py:147-211)

Scores are elements of a linear order, labels are 0 or 1, and NaN is `none`. scikit-learn and OGB are external: the definitions say what
they compute.
-/

namespace Verif

variable {α : Type} [LinearOrder α]

/-- `np.argsort(y_score)[::-1]` in scikit-learn's `_binary_clf_curve`: scores and labels from the largest score to the
smallest. -/
def sortDesc (l : List (α × Bool)) : List (α × Bool) := l.insertionSort fun a b => b.1 ≤ a.1

/-- `_binary_clf_curve` of scikit-learn (external contract) on sorted scores: the numbers of positives and of
negatives so far, at the last place of every run of equal scores. -/
def clfCurve : Nat → Nat → List (α × Bool) → List (Nat × Nat)
  | _, _, [] => []
  | tp, fp, [a] => [(tp + a.2.toNat, fp + (!a.2).toNat)]
  | tp, fp, a :: b :: l =>
    if b.1 = a.1 then clfCurve (tp + a.2.toNat) (fp + (!a.2).toNat) (b :: l)
    else (tp + a.2.toNat, fp + (!a.2).toNat) :: clfCurve (tp + a.2.toNat) (fp + (!a.2).toNat) (b :: l)

/-- `np.diff`, from `start` on. -/
def diffFrom (start : ℚ) (l : List ℚ) : List ℚ := List.zipWith (fun r r0 => r - r0) l (start :: l)

/-- `average_precision_score` of scikit-learn (external contract, version 1.1 or later) for one column: the steps of
the recall times the precisions. Without positives the recalls are 1. -/
def apBinary (l : List (α × Bool)) : ℚ :=
  let curve := clfCurve 0 0 (sortDesc l)
  let total := (curve.getLast?.getD (0, 0)).1
  let precision := curve.map fun p => (p.1 : ℚ) / ((p.1 + p.2 : Nat) : ℚ)
  let recall := curve.map fun p => if total = 0 then (1 : ℚ) else (p.1 : ℚ) / (total : ℚ)
  (List.zipWith (fun d p => d * p) (diffFrom 0 recall) precision).sum

/-- `roc_auc_score` of scikit-learn (external contract) for one column with both labels: the area under the points of
`roc_curve` by the trapezoidal rule. Simplified: scikit-learn leaves out points on a straight line between their
neighbours, which does not change the area. -/
def rocAuc (l : List (α × Bool)) : ℚ :=
  let curve := clfCurve 0 0 (sortDesc l)
  let last := curve.getLast?.getD (0, 0)
  let tpr := curve.map fun p => (p.1 : ℚ) / (last.1 : ℚ)
  let fpr := curve.map fun p => (p.2 : ℚ) / (last.2 : ℚ)
  (List.zipWith (fun d t => d * t) (diffFrom 0 fpr) (List.zipWith (fun t t0 => (t + t0) / 2) tpr (0 :: tpr))).sum

/-- Column `i` of `y_pred` and `y_true`. -/
def scoreColumn (yPred : List (List α)) (yTrue : List (List (Option Bool))) (i : Nat) : List (α × Option Bool) :=
  (yPred.zip yTrue).filterMap fun r => (r.1[i]?).map fun s => (s, r.2.getD i none)

/-- The entries of a column that have a label. -/
def labelledIn (col : List (α × Option Bool)) : List (α × Bool) := col.filterMap fun e => e.2.map fun b => (e.1, b)

/-- The arrays have the shape (rows, `k`). -/
def shapeIs (k : Nat) (yPred : List (List α)) (yTrue : List (List (Option Bool))) : Bool :=
  yPred.length == yTrue.length && yPred.all (fun r => r.length == k) && yTrue.all (fun r => r.length == k)

/-- `Evaluator._ap` (exp/train_utils.py:189-195). `average_precision_score` raises `ValueError` for NaN, for empty
arrays and for arrays of different shape; it gives the mean over the columns. -/
def apMetric (yPred : List (List α)) : Option (List (List (Option Bool))) → Py ℚ
  | none => .error .assertion
  | some yTrue =>
    let k := (yPred.head?.getD []).length
    if yTrue = [] ∨ k = 0 ∨ shapeIs k yPred yTrue = false ∨ none ∈ yTrue.flatten then .error .value
    else .ok (((List.range k).map fun i => apBinary (labelledIn (scoreColumn yPred yTrue i))).sum / (k : ℚ))

/-- The metrics of OGB that rank; `rmse` and the others are left out. -/
inductive RankKey
  | rocauc | ap
  deriving DecidableEq

/-- The metric of a column. -/
def RankKey.score : RankKey → List (α × Bool) → ℚ
  | .rocauc => rocAuc
  | .ap => apBinary

/-- One round of the loop over the columns in `_eval_rocauc` and `_eval_ap` of OGB (external contract): columns
without positives or without negatives are left out, and so are missing labels. -/
def ogbColumn (key : RankKey) (col : List (α × Option Bool)) : Option ℚ :=
  if col.any (fun e => e.2 == some true) && col.any (fun e => e.2 == some false) then
    some (key.score (labelledIn col))
  else none

/-- `Evaluator._ogb` (exp/train_utils.py:206-211). OGB (external contract) raises `RuntimeError` if the shapes are wrong
and if no column is left; it gives the mean over the columns that are left. -/
def ogbMetric (key : RankKey) (numTasks : Nat) (yPred : List (List α)) : Option (List (List (Option Bool))) → Py ℚ
  | none => .error .assertion
  | some yTrue =>
    if shapeIs numTasks yPred yTrue = false then .error .runtime
    else
      let scores := (List.range numTasks).filterMap fun i => ogbColumn key (scoreColumn yPred yTrue i)
      if scores = [] then .error .runtime else .ok (scores.sum / (scores.length : ℚ))

end Verif
