import Verif.Model.Ranking

/-!
# What average precision and ROC-AUC mean
-/

namespace Verif

variable {α : Type} [LinearOrder α]

/-- The number of entries with a label. -/
def labelCount (b : Bool) (l : List (α × Bool)) : Nat := (l.filter fun a => a.2 == b).length

/-- The precision of calling positive everything that scores at least `s`. -/
def precisionAt (l : List (α × Bool)) (s : α) : ℚ :=
  ((l.filter fun a => decide (s ≤ a.1) && a.2).length : ℚ) / ((l.filter fun a => decide (s ≤ a.1)).length : ℚ)

/-- The mean, over the positives, of the precision at their score; 0 without positives. -/
def apOf (l : List (α × Bool)) : ℚ :=
  ((l.filter fun a => a.2).map fun a => precisionAt l a.1).sum / (labelCount true l : ℚ)

/-- Who wins: the positive with score `p` or the negative with score `n`; equal scores count half. -/
def duel (p n : α) : ℚ := if n < p then 1 else if n = p then 1 / 2 else 0

/-- The probability that a random positive scores higher than a random negative. -/
def aucOf (l : List (α × Bool)) : ℚ :=
  ((l.filter fun a => !a.2).map fun n => ((l.filter fun a => a.2).map fun p => duel p.1 n.1).sum).sum /
    ((labelCount true l : ℚ) * (labelCount false l : ℚ))

/-- Every positive scores higher than every negative. -/
def Separated (l : List (α × Bool)) : Prop := ∀ p ∈ l, ∀ n ∈ l, p.2 = true → n.2 = false → n.1 < p.1

/-- The metric of a column. -/
def RankKey.meaning : RankKey → List (α × Bool) → ℚ
  | .rocauc => aucOf
  | .ap => apOf

/-- The predictions and labels have the same number of rows, each with `k` entries. -/
structure ArrayShape (k : Nat) (yPred : List (List α)) (yTrue : List (List (Option Bool))) : Prop where
  rows : yPred.length = yTrue.length
  pred : ∀ r ∈ yPred, r.length = k
  labels : ∀ r ∈ yTrue, r.length = k

/-- The scores and labels in column `i`, for the rows that have a label there. -/
def entries (yPred : List (List α)) (yTrue : List (List (Option Bool))) (i : Nat) : List (α × Bool) :=
  (yPred.zip yTrue).filterMap fun r =>
    match r.1[i]?, r.2[i]? with
    | some s, some (some b) => some (s, b)
    | _, _ => none

/-- Both labels occur. -/
def BothLabels (l : List (α × Bool)) : Prop := 0 < labelCount true l ∧ 0 < labelCount false l

instance (l : List (α × Bool)) : Decidable (BothLabels l) := by unfold BothLabels; infer_instance

end Verif
