import Verif.Model.Convert

/-!
# The number of features of a dataset (data/datasets/dataset.py:86-99)
-/

namespace Verif

variable {F L : Type}

/-- `_look_up_num_features` (data/datasets/dataset.py:93-99): the loops are those of the conversion, without
the largest dimension. `comps` are the complexes the iteration over the dataset gives; the state after a failed
check is not represented. -/
def lookUpNumFeatures (width : F → Nat) (nf : List (Option Nat)) (comps : List (Complex F L)) :
    Py (List (Option Nat)) := do
  let r ← foldE (recordComplex width) (none, nf) comps
  return r.2

/-- `num_features_in_dim` (data/datasets/dataset.py:86-91): the table afterwards and the answer. Negative
dimensions, which Python counts from the end of the table, are left out. -/
def numFeaturesInDim (width : F → Nat) (maxDim : Nat) (comps : List (Complex F L)) (nf : List (Option Nat))
    (dim : Nat) : Py (List (Option Nat) × Option Nat) :=
  if maxDim < dim then .error .value
  else do
    let known ← getAt nf dim
    match known with
    | some n => return (nf, some n)
    | none => do
      let nf' ← lookUpNumFeatures width nf comps
      let answer ← getAt nf' dim
      return (nf', answer)

/-- The table before the first call (data/datasets/dataset.py:58). -/
def emptyTable (maxDim : Nat) : List (Option Nat) := List.replicate (maxDim + 1) none

/-- A sequence of calls: the answers. -/
def askNumFeatures (width : F → Nat) (maxDim : Nat) (comps : List (Complex F L)) :
    List (Option Nat) → List Nat → Py (List (Option Nat))
  | _, [] => .ok []
  | nf, dim :: dims => do
    let r ← numFeaturesInDim width maxDim comps nf dim
    let rest ← askNumFeatures width maxDim comps r.1 dims
    return r.2 :: rest

end Verif
