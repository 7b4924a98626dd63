import Verif.Model.Experiment
import Mathlib.Data.List.ReduceOption

/-!
# Losses and missing targets (exp/train_utils.py:9-14, 58-69, 123-135)

Numbers are rational, and NaN is `none`. Predictions are numbers: a network that gives NaN is not modelled.
-/

namespace Verif

/-- What the criteria compare, entry by entry (exp/train_utils.py:10-13, 20-29): the absolute difference for
`regression`, the squared difference for `mse_regression`, and for `bin_classification` the function `bce` of
`BCEWithLogitsLoss`, which is a parameter. The other tasks have no criterion of this kind. -/
def Task.errorOf (bce : ℚ → ℚ → ℚ) : Task → Option (ℚ → ℚ → ℚ)
  | .regression => some fun p t => |p - t|
  | .mseRegression => some fun p t => (p - t) ^ 2
  | .binClassification => some bce
  | .classification | .isomorphism | .other => none

/-- The entries `flat` in rows as long as those of `pred`. -/
def cutLike {α β : Type} : List (List α) → List β → List (List β)
  | [], _ => []
  | row :: rows, flat => flat.take row.length :: cutLike rows (flat.drop row.length)

/-- `batch.y.view(pred.shape)` (exp/train_utils.py:62, 129): `RuntimeError` unless there are as many targets as
predictions. Simplified: the conversion to single precision is left out. -/
def viewAs {α β : Type} (pred : List (List α)) (flat : List β) : Py (List (List β)) :=
  if flat.length = (pred.map List.length).sum then .ok (cutLike pred flat) else .error .runtime

/-- `pred[mask]` and `targets[mask]` for `mask = ~torch.isnan(targets)` (exp/train_utils.py:67-68, 132-133): the
predictions and the targets at the places where a target is present, in pairs. -/
def maskedPairs (pred : List (List ℚ)) (targets : List (List (Option ℚ))) : List (ℚ × ℚ) :=
  (pred.flatten.zip targets.flatten).filterMap fun e => e.2.map fun t => (e.1, t)

/-- The loss of a batch for a criterion that compares entries (exp/train_utils.py:62-68, 129-133). The criteria are
built with the default `reduction='mean'`, and the mean of nothing is NaN. -/
def maskedLoss (f : ℚ → ℚ → ℚ) (pred : List (List ℚ)) (y : List (Option ℚ)) : Py (Option ℚ) := do
  let targets ← viewAs pred y
  return meanLoss ((maskedPairs pred targets).map fun e => f e.1 e.2)

/-- What `CrossEntropyLoss` gives for a row: `nll` of the row and the class; `IndexError` for a class without a
logit. -/
def classError (nll : List ℚ → Nat → ℚ) (e : List ℚ × Nat) : Py ℚ :=
  if e.2 < e.1.length then .ok (nll e.1 e.2) else .error .index

/-- The loss of a batch for `CrossEntropyLoss` (exp/train_utils.py:60, 67-68, 126, 132-133). The targets are
integers, so that none is NaN and the mask keeps everything; `IndexError` when the mask is not as long as the
predictions. Simplified: a class is a natural number, so that `ignore_index` is not met. -/
def classLoss (nll : List ℚ → Nat → ℚ) (pred : List (List ℚ)) (y : List Nat) : Py (Option ℚ) := do
  if y.length ≠ pred.length then throw .index
  let errors ← mapE (classError nll) (pred.zip y)
  return meanLoss errors

/-- `np.mean` of losses that may be NaN; NaN for an empty list (exp/train_utils.py:143). -/
def meanOrNaN (l : List (Option ℚ)) : Option ℚ := if none ∈ l then none else meanLoss l.reduceOption

/-- The mean loss that `eval` gives (exp/train_utils.py:104-143) for batches of predictions and targets. -/
def splitLoss {Y : Type} (loss : List (List ℚ) → Y → Py (Option ℚ)) (loader : List (List (List ℚ) × Y)) :
    Py (Option ℚ) := do
  let losses ← mapE (fun b => loss b.1 b.2) loader
  return meanOrNaN losses

/-- `Evaluator._mae` (exp/train_utils.py:198-204) on arrays of several columns with missing entries.
`met.mean_absolute_error` raises `ValueError` for NaN, for arrays of different shape and for empty arrays; it averages
the columns' mean absolute errors, which is the mean over all entries. -/
def maeOfArrays (yPred : List (List ℚ)) (yTrue : List (List (Option ℚ))) : Py ℚ :=
  if none ∈ yTrue.flatten then .error .value
  else if yTrue.map List.length = yPred.map List.length then absoluteError yTrue.flatten.reduceOption yPred.flatten
  else .error .value

end Verif
