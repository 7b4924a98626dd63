import Verif.Model.Layers

/-!
# Networks on complexes (mp/nn.py, mp/models.py)

Evaluation mode: dropout is the identity and is left out. Learned maps (`lin1s`, `lin2`, the
activation, jumping knowledge) are arbitrary functions on rows, see `Verif.Model.Layers`.
-/

namespace Verif

variable {𝕜 R L : Type}

/-- The two pooling functions (mp/nn.py:30-36). -/
inductive Pooling
  | sum | mean
  deriving DecidableEq

/-- `get_pooling_fn` (mp/nn.py:30-36). -/
def getPoolingFn (readout : String) : Py Pooling :=
  if readout = "sum" then .ok .sum
  else if readout = "mean" then .ok .mean
  else .error .notImplemented

/-- The aggregation of `global_add_pool` and `global_mean_pool`: `scatter` with `'add'` or `'mean'`
(external contract). -/
def Pooling.agg (𝕜 : Type) [Field 𝕜] [AddCommMonoid R] [Module 𝕜 R] : Pooling → List R → R
  | .sum => aggAdd
  | .mean => aggMean (𝕜 := 𝕜)

/-- `data.cochains[0].batch.max() + 1` (mp/nn.py:53, mp/models.py:64, 173, 370, 462): `KeyError`
without vertices, `AttributeError` without batch vector, `RuntimeError` for an empty one. -/
def batchSize (data : Complex R L) : Py Nat :=
  match data.cochains[0]? with
  | none => .error .key
  | some c =>
    match c.batch with
    | none => .error .attribute
    | some b => Cochain.maxPlusOne b

section
variable [Field 𝕜] [AddCommMonoid R] [Module 𝕜 R]

/-- One iteration of the loop of `pool_complex` (mp/nn.py:57-59): pool the rows of dimension `i` by
the batch vector of the dimension and store them in `pooled_xs[i]`.
Simplified: without batch vector the result depends on the version of PyTorch Geometric; the model
raises `TypeError`. -/
def poolDim (𝕜 : Type) [Field 𝕜] [Module 𝕜 R] (pool : Pooling) (data : Complex R L) (maxDim n : Nat)
    (xi : List R × Nat) : Py (List R) :=
  match data.cochains[xi.2]? with
  | none => .error .key
  | some c =>
    match c.batch with
    | none => .error .type
    | some b => do
      let pooled ← scatter (pool.agg 𝕜) n b xi.1
      if xi.2 ≤ maxDim then return pooled else .error .index

/-- `pool_complex` (mp/nn.py:50-60, and the methods mp/models.py:61-71, 171-185, 367-377): one row per
complex in each of the dimensions up to `max_dim`, zero for the dimensions without features. -/
def poolComplex (𝕜 : Type) [Field 𝕜] [Module 𝕜 R] (pool : Pooling) (data : Complex R L) (maxDim : Nat)
    (xs : List (List R)) : Py (List (List R)) := do
  let n ← batchSize data
  if xs.length = 0 then .error .index
  else do
    let pooled ← mapE (poolDim 𝕜 pool data maxDim n) xs.zipIdx
    return pooled ++ List.replicate (maxDim + 1 - xs.length) (zeroRows n)

end

/-- The loop over the layers (mp/models.py:84-87, 199-207): extract the parameters, apply the layer,
write the features back. Returns the data and the outputs of every layer. -/
def runConvs {Cv : Type} (params : Complex R L → Py (List (MPParams R)))
    (conv : Cv → List (MPParams R) → Py (List (List R))) :
    Complex R L → List Cv → Py (Complex R L × List (List (List R)))
  | data, [] => .ok (data, [])
  | data, c :: cs => do
    let ps ← params data
    let xs ← conv c ps
    let data ← data.setXs (xs.map some)
    let rest ← runConvs params conv data cs
    return (rest.1, xs :: rest.2)

/-- `for i, x in enumerate(xs): jump_xs[i] += [x]` (mp/models.py:92-93, 216-217). -/
def jumpAppend {X : Type} : List (List X) → List X → Py (List (List X))
  | js, [] => .ok js
  | [], _ :: _ => .error .index
  | j :: js, x :: xs => do
    let rest ← jumpAppend js xs
    return (j ++ [x]) :: rest

/-- The loop of `jumpAppend` over the layers. -/
def jumpLoop {X : Type} : List (List X) → List (List X) → Py (List (List X))
  | js, [] => .ok js
  | js, xs :: rest => do
    let js ← jumpAppend js xs
    jumpLoop js rest

/-- `jump_xs` (mp/models.py:89-93, 212-217): per dimension, the outputs of the layers. Without layers
it is `None`, over which `jump_complex` cannot iterate. -/
def collectJump {X : Type} (outs : List (List X)) : Py (List (List X)) :=
  match outs with
  | [] => .error .type
  | xs :: _ => jumpLoop (List.replicate xs.length []) outs

/-- `JumpingKnowledge` (external contract): a function of the outputs of the layers for a cell
(concatenation, maximum, or a recurrent network over the layers), applied to each cell. -/
def jumpRows (f : List R → R) (layers : List (List R)) : Py (List R) :=
  match layers with
  | [] => .error .runtime
  | x :: rest =>
    if rest.all (fun y => y.length == x.length) then
      .ok ((List.range x.length).map fun k => f (layers.filterMap fun y => y[k]?))
    else .error .runtime

/-- The rows that go to the pooling (mp/models.py:95-96, 219-220; `jump_complex`, mp/models.py:187-192,
mp/molec_models.py:83-88): those of the last layer, or the jumping knowledge. Without layers `xs` is `None`. -/
def finalRows (jump : Option (List R → R)) (outs : List (List (List R))) : Py (List (List R)) :=
  match jump with
  | none =>
    match outs.getLast? with
    | none => .error .type
    | some xs => .ok xs
  | some f => do
    let js ← collectJump outs
    mapE (jumpRows f) js

/-- `torch.stack(xs, dim=0)` followed by `mean(0)` or `sum(0)` (mp/models.py:237-246). -/
def stackReduce (𝕜 : Type) [Field 𝕜] [AddCommMonoid R] [Module 𝕜 R] (finalReadout : String)
    (xs : List (List R)) : Py (List R) :=
  match xs with
  | [] => .error .runtime
  | x :: rest =>
    if rest.all (fun y => y.length == x.length) then
      if finalReadout = "mean" then
        .ok ((List.range x.length).map fun k => aggMean (𝕜 := 𝕜) (xs.filterMap fun y => y[k]?))
      else if finalReadout = "sum" then
        .ok ((List.range x.length).map fun k => (xs.filterMap fun y => y[k]?).sum)
      else .error .notImplemented
    else .error .runtime

/-- `xs[i]` for a list. -/
def listGet {X : Type} (xs : List X) (i : Nat) : Py X :=
  match xs[i]? with
  | none => .error .index
  | some x => .ok x

/-- The parameters of `SparseCIN` and `CINpp` (mp/models.py:112-163, 259-284); `convs` holds the
`mp_levels` of the layers. `readout_dims` beyond `max_dim` are dropped by the constructor
(lines 129-132).
Simplified: `readout` is looked up in `forward`, the constructor does it (line 139). -/
structure SparseNet (R Lv : Type) where
  convs : List (List Lv)
  maxDim : Nat := 2
  jump : Option (List R → R) := none
  readout : String := "sum"
  readoutDims : Option (List Nat) := some [0, 1, 2]
  act : R → R
  lin1s : List (R → R)
  finalReadout : String := "sum"
  lin2 : R → R

/-- `self.readout_dims` (mp/models.py:129-132). -/
def SparseNet.dims {Lv : Type} (net : SparseNet R Lv) : List Nat :=
  match net.readoutDims with
  | some dims => dims.filter fun d => d ≤ net.maxDim
  | none => List.range (net.maxDim + 1)

/-- The part of `forward` after the layers (mp/models.py:219-254, mp/molec_models.py:126-160,
472-500). -/
def SparseNet.readoutPart {Lv : Type} (𝕜 : Type) [Field 𝕜] [AddCommMonoid R] [Module 𝕜 R]
    (net : SparseNet R Lv) (data : Complex R L) (outs : List (List (List R))) : Py (List R) := do
  let xs ← finalRows net.jump outs
  let pool ← getPoolingFn net.readout
  let pooled ← poolComplex 𝕜 pool data net.maxDim xs
  let sel ← mapE (listGet pooled) net.dims
  let new ← mapE (fun (xd : List R × Nat) => do
    let lin1 ← listGet net.lin1s xd.2
    return xd.1.map fun r => net.act (lin1 r)) (sel.zip net.dims)
  let x ← stackReduce 𝕜 net.finalReadout new
  return x.map net.lin2

/-- `SparseCIN.forward` and `CINpp.forward` (mp/models.py:194-254): `forward` is that of the levels.
The features of lower neighbours are not requested (line 200).
Simplified: `include_partial` only changes what else is returned. -/
def SparseNet.forward {Lv : Type} (𝕜 : Type) [Field 𝕜] [AddCommMonoid R] [Module 𝕜 R]
    (level : Lv → MPParams R → Py (List R)) (net : SparseNet R Lv) (data : Complex R L) :
    Py (List R) := do
  let out ← runConvs (fun data => data.getAllCochainParams net.maxDim true false)
    (convForward level) data net.convs
  net.readoutPart 𝕜 out.1 out.2

/-- The parameters of `CIN0` (mp/models.py:20-59). -/
structure CINNet (R Lv : Type) where
  convs : List (List Lv)
  maxDim : Nat := 2
  jump : Option (List R → R) := none
  readout : String := "sum"
  act : R → R
  lin1 : R → R
  lin2 : R → R

/-- `CIN0.forward` (mp/models.py:80-103). -/
def CINNet.forward {Lv : Type} (𝕜 : Type) [Field 𝕜] [AddCommMonoid R] [Module 𝕜 R]
    (level : Lv → MPParams R → Py (List R)) (net : CINNet R Lv) (data : Complex R L) :
    Py (List R) := do
  let out ← runConvs (fun data => data.getAllCochainParams net.maxDim) (convForward level) data
    net.convs
  let xs ← finalRows net.jump out.2
  let pool ← getPoolingFn net.readout
  let pooled ← poolComplex 𝕜 pool out.1 net.maxDim xs
  let x ← stackReduce 𝕜 "sum" pooled
  return x.map fun r => net.lin2 (net.act (net.lin1 r))

/-- The parameters of `Dummy` (mp/models.py:430-442). -/
structure DummyNet (R : Type) where
  layers : Nat
  maxDim : Nat := 2
  readout : String := "sum"
  lin : R → R

/-- `Dummy.forward` (mp/models.py:447-470): `get_all_cochain_params` is called with its defaults
(`max_dim = 2`), whatever the `max_dim` of the model; the levels are those of
`DummyCellularMessagePassing` (mp/layers.py:44-51), built with `use_boundary_msg=False` and
`use_down_msg=True` (its defaults). -/
def DummyNet.forward (𝕜 : Type) [Field 𝕜] [AddCommMonoid R] [Module 𝕜 R] (net : DummyNet R)
    (data : Complex R L) : Py (List R) := do
  let out ← runConvs (fun data => data.getAllCochainParams) (convForward DummyLevel.forward) data
    (List.replicate net.layers (List.replicate (net.maxDim + 1) {}))
  let xs ← finalRows none out.2
  let pool ← getPoolingFn net.readout
  let pooled ← poolComplex 𝕜 pool out.1 net.maxDim xs
  let x ← stackReduce 𝕜 "sum" pooled
  return x.map net.lin

/-- The parameters of `MessagePassingAgnostic` (mp/models.py:624-637). -/
structure AgnosticNet (R : Type) where
  maxDim : Nat := 2
  readout : String := "sum"
  act : R → R
  lin0s : List (R → R)
  lin1 : R → R
  lin2 : R → R

/-- `MessagePassingAgnostic.forward` (mp/models.py:645-658); a linear layer applied to `None` raises
`TypeError`. -/
def AgnosticNet.forward (𝕜 : Type) [Field 𝕜] [AddCommMonoid R] [Module 𝕜 R] (net : AgnosticNet R)
    (data : Complex R L) : Py (List R) := do
  let ps ← data.getAllCochainParams net.maxDim true false
  let xs ← mapE (fun (pi : MPParams R × Nat) => do
    let lin0 ← listGet net.lin0s pi.2
    match pi.1.x with
    | none => .error .type
    | some x => return x.map fun r => net.act (lin0 r)) ps.zipIdx
  let pool ← getPoolingFn net.readout
  let pooled ← poolComplex 𝕜 pool data net.maxDim xs
  let x ← stackReduce 𝕜 "sum" (pooled.map (·.map fun r => net.act (net.lin1 r)))
  return x.map net.lin2

end Verif
