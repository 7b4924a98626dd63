import Mathlib.Analysis.Real.Sqrt
import Mathlib.Data.List.ReduceOption

/-!
# The targets of the structural peptides (data/datasets/peptides_structural.py:147-160, 226-235)

Numbers are real, and NaN is `none`.
-/

namespace Verif

noncomputable section

/-- `x.mean()` of a column: pandas leaves NaN out, and the mean of nothing is NaN. -/
def columnMean (col : List (Option ℝ)) : Option ℝ :=
  if col.reduceOption = [] then none else some (col.reduceOption.sum / col.reduceOption.length)

/-- `x.std()` of a column: pandas divides by the number of values less one and leaves NaN out; NaN for fewer than two
values. -/
def columnStd (col : List (Option ℝ)) : Option ℝ :=
  match columnMean col with
  | none => none
  | some m =>
    if col.reduceOption.length < 2 then none
    else some (Real.sqrt ((col.reduceOption.map fun v => (v - m) ^ 2).sum / ((col.reduceOption.length : ℝ) - 1)))

/-- `(v - m) / s`: NaN when one of the three is NaN, and for `0 / 0`. The deviation is zero only if every value of the
column is the mean, so that no other division by zero occurs. -/
def standardEntry (m s v : Option ℝ) : Option ℝ :=
  match m, s, v with
  | some m, some s, some v => if s = 0 then none else some ((v - m) / s)
  | _, _, _ => none

/-- `lambda x: (x - x.mean()) / x.std()` (data/datasets/peptides_structural.py:158, 235). -/
def standardise (col : List (Option ℝ)) : List (Option ℝ) := col.map (standardEntry (columnMean col) (columnStd col))

/-- Column `j` of a table. -/
def columnOf (rows : List (List (Option ℝ))) (j : Nat) : List (Option ℝ) := rows.map fun r => r[j]?.join

/-- The rows of the table after lines 157-158 (and 234-235) of data/datasets/peptides_structural.py, where every one of
the `T` columns of targets is replaced; `data_df.iloc[i][target_names]` is row `i`. Simplified: the table has the
columns of the targets only, in the order of `target_names`. -/
def standardRows (T : Nat) (rows : List (List (Option ℝ))) : List (List (Option ℝ)) :=
  (List.range rows.length).map fun i => (List.range T).map fun j => (standardise (columnOf rows j))[i]?.join

/-- The strings and the labels that the loop of lines 162-180 goes through. -/
def structuralTable (T : Nat) (smiles : List String) (rows : List (List (Option ℝ))) :
    List (String × List (Option ℝ)) := smiles.zip (standardRows T rows)

end

end Verif
