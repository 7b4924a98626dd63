import Verif.Model.Dummies

/-!
# The tests that batching returns the same features and indices
-/

namespace Verif

variable {R L : Type}

/-- What the loops of the tests keep of dimension `d`, one after the other (data/test_batching.py:599-610, 612-620 and the same
lines of the other tests): `get` is what is appended for the parameters of dimension `d`, `None` if nothing is appended; a complex
without that dimension adds nothing; nothing collected stays `None`.
Simplified: the code fills the lists of all dimensions in one loop over the complexes. -/
def keptDim (get : MPParams R → Py (Option (List R))) (pss : List (List (MPParams R))) (d : Nat) : Py (Option (List R)) := do
  let found ← mapE get (pss.filterMap fun ps => ps[d]?)
  let parts := found.filterMap id
  return if parts.isEmpty then none else some parts.flatten

/-- `params = batch.get_all_cochain_params()` and `assert len(params) <= batch_max_dim+1` (data/test_batching.py:601-602). -/
def boundedParams (maxDim : Nat) (batch : Complex R L) : Py (List (MPParams R)) := do
  let ps ← batch.getAllCochainParams
  pyAssert (decide (ps.length ≤ maxDim + 1))
  return ps

/-- The tests that batching returns the same (data/test_batching.py:588-1019): what is collected from the batches is, in every
dimension, what is collected from the complexes alone. `getB` and `getS` are what the tests append for a batch and for a single
complex. A batch size of 0 is a `ValueError` of the loader.
Simplified: all batches are built before the first is looked at, and all dimensions are compared at once; the comparison of the
lengths is part of the comparison of the rows. -/
def sameTest [DecidableEq R] (getB getS : Nat → MPParams R → Py (Option (List R))) (batchSize maxDim : Nat)
    (cs : List (Complex R L)) : Py Unit :=
  if batchSize = 0 then .error .value
  else do
    let batches ← mapE (fun part => fromComplexList part maxDim) (chunks batchSize cs)
    let bps ← mapE (boundedParams maxDim) batches
    let batched ← mapE (fun d => keptDim (getB d) bps d) (List.range (maxDim + 1))
    let sps ← mapE (fun comp => comp.getAllCochainParams) cs
    let single ← mapE (fun d => keptDim (getS d) sps d) (List.range (maxDim + 1))
    pyAssert (decide (single = batched))

/-- `params[dim].x` (data/test_batching.py:604, 616). Concatenating `None` is a `TypeError` of torch. -/
def getFeatures (p : MPParams R) : Py (Option (List R)) :=
  match p.x with
  | none => .error .type
  | some x => .ok (some x)

/-- The rows of `rows` at one side of the boundary index, if there are boundary features
(data/test_batching.py:905-911, 973-979). -/
def getIncident (rows : MPParams R → Option (List R)) (side : Nat × Nat → Nat) (p : MPParams R) : Py (Option (List R)) :=
  match p.boundaryAttr with
  | none => .ok none
  | some _ =>
    match p.boundaryIndex, rows p with
    | none, _ => .error .assertion
    | some _, none => .error .type
    | some cols, some r => do
      let f ← indexSelect r (cols.map side)
      return some f

variable [DecidableEq R]

/-- `test_batching_returns_the_same_features` (data/test_batching.py:588-623, 627-662, 666-703). -/
def featuresTest (batchSize maxDim : Nat) (cs : List (Complex R L)) : Py Unit :=
  sameTest (fun _ => getFeatures) (fun _ => getFeatures) batchSize maxDim cs

/-- `test_batching_returns_the_same_up_attr` (data/test_batching.py:707-750, 753-796): for a single complex the features of the
shared coboundaries are not counted in the dimension at which the batches are cut. -/
def upAttrTest (batchSize maxDim : Nat) (cs : List (Complex R L)) : Py Unit :=
  sameTest (fun _ p => .ok p.upAttr) (fun d p => .ok (if d < maxDim then p.upAttr else none)) batchSize maxDim cs

/-- `test_batching_returns_the_same_down_attr` (data/test_batching.py:800-841, 844-884). -/
def downAttrTest (batchSize maxDim : Nat) (cs : List (Complex R L)) : Py Unit :=
  sameTest (fun _ p => .ok p.downAttr) (fun _ p => .ok p.downAttr) batchSize maxDim cs

/-- `test_batching_of_boundary_index` (data/test_batching.py:889-950, 956-1019): the features of the faces, and those of the cells
they are faces of, column by column of the boundary index.
Simplified: the code collects both in the same loop. -/
def boundaryIndexTest (batchSize maxDim : Nat) (cs : List (Complex R L)) : Py Unit := do
  sameTest (fun _ => getIncident (·.boundaryAttr) Prod.fst) (fun _ => getIncident (·.boundaryAttr) Prod.fst) batchSize maxDim cs
  sameTest (fun _ => getIncident (·.x) Prod.snd) (fun _ => getIncident (·.x) Prod.snd) batchSize maxDim cs

end Verif
