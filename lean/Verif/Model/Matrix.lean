import Verif.Base

/-!
# Dense integer matrices

The numpy arrays of the flow datasets. The arrays hold floats whose values are small integers, for which the
operations used are exact.
-/

namespace Verif

/-- A two-dimensional array: its shape and its entries. Entries outside the shape mean nothing. -/
structure Mat where
  rows : Nat
  cols : Nat
  entry : Nat → Nat → Int

namespace Mat

/-- `np.zeros((n, m))`. -/
def zeros (n m : Nat) : Mat := ⟨n, m, fun _ _ => 0⟩

/-- `np.identity(n)`. -/
def identity (n : Nat) : Mat := ⟨n, n, fun i j => if i = j then 1 else 0⟩

/-- `np.diag(d)`. -/
def diag (d : List Int) : Mat := ⟨d.length, d.length, fun i j => if i = j then d[i]?.getD 0 else 0⟩

/-- `A[i, j] = v`; `IndexError` outside the shape. -/
def set (A : Mat) (i j : Nat) (v : Int) : Py Mat :=
  if i < A.rows ∧ j < A.cols then
    .ok { A with entry := fun a b => if a = i ∧ b = j then v else A.entry a b }
  else .error .index

/-- `A.T`. -/
def transpose (A : Mat) : Mat := ⟨A.cols, A.rows, fun i j => A.entry j i⟩

/-- `A.dot(B)`; `ValueError` when the shapes do not fit. -/
def dot (A B : Mat) : Py Mat :=
  if A.cols = B.rows then
    .ok ⟨A.rows, B.cols, fun i j => ((List.range A.cols).map fun k => A.entry i k * B.entry k j).sum⟩
  else .error .value

/-- `np.sum(np.abs(A), axis=-1)[i]`. -/
def rowAbs (A : Mat) (i : Nat) : Nat := ((List.range A.cols).map fun j => (A.entry i j).natAbs).sum

/-- `np.sum(np.abs(A), axis=0)[j]`. -/
def colAbs (A : Mat) (j : Nat) : Nat := ((List.range A.rows).map fun i => (A.entry i j).natAbs).sum

/-- `np.sum(A, axis=0)[j]`. -/
def colSum (A : Mat) (j : Nat) : Int := ((List.range A.rows).map fun i => A.entry i j).sum

end Mat

end Verif
