import Verif.Model.Experiment

/-!
# Averages and medians
-/

namespace Verif

/-- The average of a list of numbers. -/
def average (l : List ℚ) : ℚ := l.sum / l.length

/-- Half of the entries are at most `m` and half of them at least `m`. -/
def IsMedian (l : List ℚ) (m : ℚ) : Prop :=
  l.length ≤ 2 * l.countP (fun x => decide (x ≤ m)) ∧ l.length ≤ 2 * l.countP (fun x => decide (m ≤ x))

/-- The sum of squared deviations from the average. -/
def deviation (l : List ℚ) : ℚ := (l.map fun x => (x - average l) ^ 2).sum

/-- The score of epoch `e` averaged over the runs. -/
def epochScore (curves : List (List ℚ)) (e : Nat) : ℚ := average (curves.map fun c => (c[e]?).getD 0)

end Verif
