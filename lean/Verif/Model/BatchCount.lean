import Verif.Model.Complex

/-!
# The accessors of `CochainBatch`

data/complex.py:321, 340, 460-487
-/

namespace Verif

variable {F L : Type}

/-- A `CochainBatch` with its `__num_cochains__`, which is `None` after `__init__` (data/complex.py:321). -/
structure CochainBatch (F L : Type) where
  data : Cochain F L
  recorded : Option Nat := none

/-- `CochainBatch.from_cochain_list` with line 340, which records the number of items (data/complex.py:323-458). -/
def CochainBatch.fromList (cs : List (Cochain F L)) : Py (CochainBatch F L) := do
  let b ← fromCochainList cs
  return ⟨b, some cs.length⟩

/-- `num_cochains` (data/complex.py:482-487). `None` has no `numel`. -/
def CochainBatch.numCochains (b : CochainBatch F L) : Py Nat :=
  match b.recorded with
  | some n => .ok n
  | none =>
    match b.data.ptr with
    | some ptr => .ok (ptr.length + 1)
    | none => .error .attribute

/-- The batches of cochains `ComplexBatch.from_complex_list` makes (data/complex.py:703-725). -/
def batchedCochains (cs : List (Complex F L)) (maxDim : Nat) : Py (List (CochainBatch F L)) :=
  match (cs.map Complex.dimension).max? with
  | none => .error .value
  | some m => do
    let cochains ← mapE (fun dim => mapE (cochainOrEmpty dim) cs) (List.range (min m maxDim + 1))
    mapE CochainBatch.fromList cochains

end Verif
