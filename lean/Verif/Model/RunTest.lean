import Verif.Model.Loader

/-!
# The test of a whole experiment (exp/test_run_exp.py)
-/

namespace Verif

variable {R L S : Type}

/-- The name of a split, as in `get_split` (data/datasets/dataset.py:364-367). -/
def Split.name : Split → String
  | .train => "train"
  | .valid => "valid"
  | .test => "test"

/-- Only the training loader shuffles (exp/run_exp.py:90-99). -/
def Split.shuffle (permutation : List Nat) : Split → Option (List Nat)
  | .train => some permutation
  | _ => none

/-- `eval(model, device, loader, evaluator, 'classification')` for the loader of a split, without the loss
(exp/run_exp.py:90-99, 379-388 and 438-442). -/
def splitScore (order : List (List Nat) → List (List Nat)) (ds : Dataset R L) (splits : Splits)
    (forward : Complex R L → Py (List R)) (loss : List R → List L → Py ℚ) (metric : List R → Option (List L) → Py ℚ)
    (permutation : List Nat) (batchSize maxDim : Nat) (split : Split) : Py (Option ℚ) := do
  let batches ← splitLoader order ds splits split.name (split.shuffle permutation) batchSize maxDim
  let r ← evalModel .classification forward Complex.targets loss metric batches
  return some r.1

/-- `a == b` for scores: NaN is not equal to anything. -/
def sameScore : Option ℚ → Option ℚ → Bool
  | some a, some b => a == b
  | _, _ => false

/-- `test_run_exp_on_dummym` (exp/test_run_exp.py:19-27) from the training loop on. -/
def runExpTest (t : Trial S) (s : S) : Py Unit := do
  let r ← runExp t s
  pyAssert (sameScore r.lastTrain r.lastValid)
  pyAssert (sameScore r.lastTrain r.lastTest)

end Verif
