import Mathlib.Data.List.Sort
import Verif.Model.Experiment

/-!
# Summaries over several runs (exp/run_tu_exp.py, exp/run_mol_exp.py, exp/run_ring_exp.py)

A score is a number or NaN (`none`), as in `Verif.Model.Experiment`. Standard deviations are irrational in general;
the model has their squares. Parsing of the arguments and writing of the messages are left out.
-/

namespace Verif

/-- The entries as numbers, unless one of them is NaN. -/
def numbers (l : List (Option ℚ)) : Option (List ℚ) := if none ∈ l then none else some (l.filterMap id)

/-- `np.mean`: NaN for an empty array. -/
def npMean (l : List (Option ℚ)) : Option ℚ := do
  let v ← numbers l
  if v = [] then none else some (v.sum / v.length)

/-- The square of `np.std(l, ddof=ddof)`: NaN unless there are more than `ddof` entries. -/
def npVar (ddof : Nat) (l : List (Option ℚ)) : Option ℚ := do
  let v ← numbers l
  let m ← npMean l
  if v.length ≤ ddof then none else some ((v.map fun x => (x - m) * (x - m)).sum / ((v.length : ℚ) - ddof))

/-- `np.max`; NaN if there is one. Empty arrays, on which it raises `ValueError`, do not get here. -/
def npMax (l : List (Option ℚ)) : Option ℚ := do
  let v ← numbers l
  v.max?

/-- `np.min`; NaN if there is one. Empty arrays, on which it raises `ValueError`, do not get here. -/
def npMin (l : List (Option ℚ)) : Option ℚ := do
  let v ← numbers l
  v.min?

/-- The middle entry of a sorted list, or the mean of the two in the middle. -/
def middle (l : List ℚ) : Option ℚ := do
  let a ← l[(l.length - 1) / 2]?
  let b ← l[l.length / 2]?
  some ((a + b) / 2)

/-- `np.median`; NaN if there is one. -/
def npMedian (l : List (Option ℚ)) : Option ℚ := do
  let v ← numbers l
  middle (v.insertionSort (· ≤ ·))

/-- `np.asarray` of the curves (exp/run_tu_exp.py:35): the common length. With curves of different length the array
has lists as entries, and its mean (line 36), a list divided by a number, raises `TypeError`. -/
def commonLength (curves : List (List (Option ℚ))) : Py Nat :=
  match curves with
  | [] => .ok 0
  | c :: cs => if ∀ d ∈ cs, d.length = c.length then .ok c.length else .error .type

/-- The scores of epoch `j` in all runs. -/
def scoresAt (curves : List (List (Option ℚ))) (j : Nat) : List (Option ℚ) := curves.map fun c => (c[j]?).join

/-- What `exp_main` of exp/run_tu_exp.py prints. -/
structure FoldSummary where
  best : Nat
  mean : Option ℚ
  var : Option ℚ
  meanPerFold : List (Option ℚ)
  maxPerFold : List (Option ℚ)
  medianPerFold : List (Option ℚ)
  bestPerFold : List (Option ℚ)

/-- The aggregation in `exp_main` (exp/run_tu_exp.py:34-59). -/
def foldSummary (curves : List (List (Option ℚ))) : Py FoldSummary := do
  let n ← commonLength curves
  let avg := (List.range n).map fun j => npMean (scoresAt curves j)
  let best ← argBest (fun a b => decide (b < a)) avg
  let mean ← getAt avg best
  return { best := best, mean := mean, var := npVar 0 (scoresAt curves best), meanPerFold := curves.map npMean,
           maxPerFold := curves.map npMax, medianPerFold := curves.map npMedian,
           bestPerFold := scoresAt curves best }

/-- `exp_main` of exp/run_tu_exp.py:21-59: ten runs, `run i` is `main` for fold `i`. -/
def crossValidation (run : Nat → Py Report) : Py FoldSummary := do
  let results ← mapE run (List.range 10)
  foldSummary (results.map fun r => r.curves.valid)

/-- The runs of `exp_main` of exp/run_mol_exp.py:17-35: seed and fold; `csl` says that the dataset is CSL. -/
def molRuns (csl : Bool) (start stop : Nat) (folds : Option Nat) : Py (List (Nat × Option Nat)) :=
  if start ≤ stop then
    match folds with
    | none => .ok ((List.range' start (stop + 1 - start)).map fun s => (s, none))
    | some k =>
      if csl then .ok ((List.range' start (stop + 1 - start)).flatMap fun s => (List.range k).map fun f => (s, some f))
      else .error .assertion
  else .error .assertion

/-- Mean and squared standard deviation of scores (exp/run_mol_exp.py:55-60, 65-70). -/
structure Stat where
  mean : Option ℚ
  var : Option ℚ

/-- Means and unbiased variances (exp/run_mol_exp.py:55-60, 65-70). -/
def stat (l : List (Option ℚ)) : Stat where
  mean := npMean l
  var := npVar 1 l

/-- What `exp_main` of exp/run_mol_exp.py prints (lines 74-91). -/
structure MolSummary where
  bestTrain : Stat
  bestValid : Stat
  bestTest : Stat
  bestTestMin : Option ℚ
  bestTestMax : Option ℚ
  lastTrain : Stat
  lastValid : Stat
  lastTest : Stat
  lastTestMin : Option ℚ
  lastTestMax : Option ℚ

/-- The aggregation in `exp_main` (exp/run_mol_exp.py:37-72): the scores at the best epoch of each run are looked up in
its curves. -/
def molSummary (results : List Report) : Py MolSummary := do
  let bestTrain ← mapE (fun r : Report => getAt r.curves.train r.best) results
  let bestValid ← mapE (fun r : Report => getAt r.curves.valid r.best) results
  let bestTest ← mapE (fun r : Report => getAt r.curves.test r.best) results
  return { bestTrain := stat bestTrain, bestValid := stat bestValid, bestTest := stat bestTest,
           bestTestMin := npMin bestTest, bestTestMax := npMax bestTest,
           lastTrain := stat (results.map Report.lastTrain), lastValid := stat (results.map Report.lastValid),
           lastTest := stat (results.map Report.lastTest), lastTestMin := npMin (results.map Report.lastTest),
           lastTestMax := npMax (results.map Report.lastTest) }

/-- `exp_main` of exp/run_mol_exp.py:12-72; `run seed fold` is `main`. -/
def molExperiment (run : Nat → Option Nat → Py Report) (csl : Bool) (start stop : Nat) (folds : Option Nat) :
    Py MolSummary := do
  let runs ← molRuns csl start stop folds
  let results ← mapE (fun r : Nat × Option Nat => run r.1 r.2) runs
  molSummary results

/-- `RING_SIZES` (exp/run_ring_exp.py:10). -/
def ringSizes : List Nat := (List.range 11).map fun i => 10 + 2 * i

/-- The number of layers for a ring size (exp/run_ring_exp.py:29); `sparse` says that the model is RingSparseCIN. -/
def ringLayers (sparse : Bool) (size : Nat) : Nat := if sparse then 3 else size / 2

/-- One line of the message: ring size, mean and squared standard deviation (exp/run_ring_exp.py:49-59). -/
structure RingLine where
  size : Nat
  mean : Option ℚ
  var : Option ℚ
  deriving DecidableEq

/-- `results[fold].append(…)` (exp/run_ring_exp.py:40-41) for a dictionary with the keys `0, 1, …`. -/
def appendAt {A : Type} (d : List (List A)) (fold : Nat) (v : A) : Py (List (List A)) :=
  modifyAt d fold fun l => l ++ [v]

/-- One run in the loops of exp/run_ring_exp.py:24-41 with the results before and after. -/
def ringRun (run : Nat → Nat → Nat → Nat → Py Report) (sparse : Bool)
    (acc : List (List (Option ℚ)) × List (List (Option ℚ))) (seedFold : Nat × Nat) :
    Py (List (List (Option ℚ)) × List (List (Option ℚ))) := do
  let size ← getAt ringSizes seedFold.2
  let r ← run seedFold.1 seedFold.2 size (ringLayers sparse size)
  let tr ← appendAt acc.1 seedFold.2 r.lastTrain
  let va ← appendAt acc.2 seedFold.2 r.lastValid
  return (tr, va)

/-- The lines of the message (exp/run_ring_exp.py:49-59). -/
def ringLines (results : List (List (Option ℚ))) : List RingLine :=
  (ringSizes.zip results).map fun sr => ⟨sr.1, npMean sr.2, npVar 0 sr.2⟩

/-- `exp_main` of exp/run_ring_exp.py:13-59: the lines for training and for validation. `run seed fold size layers` is
`main`. -/
def ringExperiment (run : Nat → Nat → Nat → Nat → Py Report) (sparse : Bool) (start stop : Nat) :
    Py (List RingLine × List RingLine) := do
  let runs := (List.range' start (stop + 1 - start)).flatMap fun s => (List.range ringSizes.length).map fun f => (s, f)
  let acc ← foldE (ringRun run sparse) (ringSizes.map fun _ => [], ringSizes.map fun _ => []) runs
  return (ringLines acc.1, ringLines acc.2)

end Verif
