import Verif.Model.Dummies
import Verif.Model.Embed

/-!
# Intermediate results of the networks and the tests that compare them
-/

namespace Verif

variable {R L : Type}

/-- The keys of the dictionary of results (mp/models.py:211, 228, 252): `layer{c}_{k}`, `pool_{k}` and `out`.
Simplified: constructors instead of strings. -/
inductive ResultKey where
  | layer (c k : Nat)
  | pool (k : Nat)
  | out
  deriving DecidableEq, Repr

/-- A dictionary of results in the order in which its keys were added. -/
abbrev Results (A : Type) := List (ResultKey × A)

/-- `for k in range(len(xs)): res[f"layer{c}_{k}"] = xs[k]` in each layer (mp/models.py:209-211, mp/molec_models.py:116-118,
305-307). -/
def layerResults (outs : List (List (List R))) : Results (List R) :=
  outs.zipIdx.flatMap fun p => p.1.zipIdx.map fun q => (.layer p.2 q.2, q.1)

/-- `for k in range(len(xs)): res[f"pool_{k}"] = xs[k]` (mp/models.py:226-228, mp/molec_models.py:133-135, 322-324). -/
def poolResults (sel : List (List R)) : Results (List R) := sel.zipIdx.map fun q => (.pool q.2, q.1)

/-- `SparseCIN.forward` and `CINpp.forward` with `include_partial=True` (mp/models.py:194-254): the prediction and the
intermediate results. -/
def SparseNet.forwardPartial {Lv : Type} (𝕜 : Type) [Field 𝕜] [AddCommMonoid R] [Module 𝕜 R]
    (level : Lv → MPParams R → Py (List R)) (net : SparseNet R Lv) (data : Complex R L) :
    Py (List R × Results (List R)) := do
  let out ← runConvs (fun data => data.getAllCochainParams net.maxDim true false) (convForward level) data net.convs
  let xs ← finalRows net.jump out.2
  let pool ← getPoolingFn net.readout
  let pooled ← poolComplex 𝕜 pool out.1 net.maxDim xs
  let sel ← mapE (listGet pooled) net.dims
  let new ← mapE (fun (xd : List R × Nat) => do
    let lin1 ← listGet net.lin1s xd.2
    return xd.1.map fun r => net.act (lin1 r)) (sel.zip net.dims)
  let x ← stackReduce 𝕜 net.finalReadout new
  return (x.map net.lin2, layerResults out.2 ++ poolResults sel ++ [(.out, x.map net.lin2)])

/-- `EmbedSparseCIN.forward`, `OGBEmbedSparseCIN.forward` and their CIN++ variants with `include_partial=True`
(mp/molec_models.py:90-161, 281-350).
Simplified: the assertion on the width of the edge features is part of the width checks. -/
def EmbedNet.forwardPartial {Lv : Type} (𝕜 : Type) [Field 𝕜] [AddCommMonoid R] [Module 𝕜 R]
    (level : Lv → MPParams R → Py (List R)) (net : EmbedNet R Lv) (data : Complex R L) :
    Py (List R × Results (List R)) := do
  checkNodes data
  let ps ← data.getAllCochainParams net.net.maxDim true false
  let xs ← net.init.forward ps
  let data ← data.setXs (xs.map some)
  net.net.forwardPartial 𝕜 level data

/-! ### The tests -/

/-- `if len(batch.cochains) >= 2: batch.cochains[1].x = None` and `if len(batch.cochains) == 3: batch.cochains[2].x = None`
(mp/test_molec_models.py:33-36, 50-53, 90-93, 104-107, 136-139, 150-153, 247-250, 266-269). -/
def stripFeatures (batch : Complex R L) : Complex R L :=
  { batch with cochains := batch.cochains.mapIdx fun d (c : Cochain R L) =>
      if d = 1 ∨ d = 2 ∧ batch.cochains.length = 3 then { c with x := none } else c }

/-- `if key not in results: results[key] = []; results[key].append(res[key])` (mp/test_models.py:162-164). -/
def addResult {A : Type} (acc : Results (List A)) (p : ResultKey × A) : Results (List A) :=
  match acc.lookup p.1 with
  | none => acc ++ [(p.1, [p.2])]
  | some _ => acc.map fun q => if q.1 = p.1 then (q.1, q.2 ++ [p.2]) else q

/-- The loop over the results of the batches or complexes (mp/test_models.py:158-164, 170-178). -/
def collectResults {A : Type} (rs : List (Results A)) : Results (List A) :=
  rs.foldl (fun acc r => r.foldl addResult acc) []

/-- `for key in results: results[key] = torch.cat(results[key], dim=0)` (mp/test_models.py:166-167, 180-181). -/
def catResults (acc : Results (List (List R))) : Py (Results (List R)) :=
  mapE (fun p => do
    let rows ← catRows p.2
    return (p.1, rows)) acc

/-- `results[key]`. -/
def getResult {A : Type} (res : Results A) (key : ResultKey) : Py A :=
  match res.lookup key with
  | none => .error .key
  | some a => .ok a

/-- `for key in set(list(unbatched_res.keys()) + list(batched_res.keys())): assert torch.allclose(..)`
(mp/test_models.py:183-185).
Simplified: the keys in the order of the lists, since it only matters to which of several failures comes first;
`torch.allclose` is equality. -/
def compareResults [DecidableEq R] (unbatched batched : Results (List R)) : Py Unit := do
  let _ ← mapE (fun key => do
    let u ← getResult unbatched key
    let v ← getResult batched key
    pyAssert (decide (u = v))) (unbatched.map Prod.fst ++ batched.map Prod.fst)
  return ()

/-- The tests that compare the intermediate results as well (mp/test_models.py:138-185, mp/test_molec_models.py:11-67,
225-284): `forward` is applied to what `prepare` makes of a batch.
Simplified: all batches are built before the first of them is evaluated. -/
def partialTest [DecidableEq R] (forward : Complex R L → Py (List R × Results (List R))) (prepare : Complex R L → Complex R L)
    (batchSize maxDim : Nat) (cs : List (Complex R L)) : Py Unit :=
  if batchSize = 0 then .error .value
  else do
    let batches ← mapE (fun part => fromComplexList part maxDim) (chunks batchSize cs)
    let batchedRes ← mapE (fun batch => forward (prepare batch)) batches
    let batched ← catResults (collectResults (batchedRes.map Prod.snd))
    let singleRes ← mapE (fun comp => fromComplexList [comp] maxDim >>= fun batch => forward (prepare batch)) cs
    let unbatched ← catResults (collectResults (singleRes.map Prod.snd))
    compareResults unbatched batched

end Verif
