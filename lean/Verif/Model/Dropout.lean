import Verif.Model.GINTrain
import Mathlib.Algebra.Order.Field.Basic
import Mathlib.Algebra.Module.Pi

/-!
# Dropout (mp/models.py, mp/molec_models.py, mp/graph_models.py)

Rows are functions from columns `ι` to numbers. The random numbers are inputs: a mask tells which entries are kept.
-/

namespace Verif

variable {𝕜 ι L : Type}

/-- The random numbers of a forward pass: entry `i` of row `r` of tensor number `d` is kept iff `m d r i`. -/
abbrev Mask (ι : Type) := Nat → Nat → ι → Bool

/-- The arguments `dropout_rate` and `apply_dropout_before` of the models (mp/models.py:112-140), and `self.training`. -/
structure DropConf (𝕜 : Type) where
  rate : 𝕜
  before : String := "lin2"
  training : Bool

section
variable [Field 𝕜]

/-- A row in training mode: the kept entries are scaled by `1 / (1 - p)`, the others are 0. For `p = 1` all are 0, as
division by 0 gives 0. -/
def dropRow (p : 𝕜) (m : ι → Bool) (x : ι → 𝕜) : ι → 𝕜 := fun i => if m i then x i / (1 - p) else 0

/-- `F.dropout(x, p, training)` on a tensor of rows (external contract): `ValueError` for a rate outside of the
interval from 0 to 1, also in evaluation mode, in which otherwise nothing happens. -/
def dropout [LinearOrder 𝕜] (conf : DropConf 𝕜) (m : Nat → ι → Bool) (x : List (ι → 𝕜)) : Py (List (ι → 𝕜)) :=
  if conf.rate < 0 ∨ 1 < conf.rate then .error .value
  else if conf.training then .ok (x.zipIdx.map fun xr => dropRow conf.rate (m xr.2) xr.1)
  else .ok x

/-- `torch.stack(new_xs, dim=0)` (mp/models.py:236, mp/molec_models.py:143, 332, 486): `RuntimeError` for an empty list and
for tensors of different shapes. -/
def stackable {X : Type} (xs : List (List X)) : Py Unit :=
  match xs with
  | [] => .error .runtime
  | x :: rest => if rest.all (fun y => y.length == x.length) then .ok () else .error .runtime

variable [LinearOrder 𝕜]

/-- Dropout of the rows of every dimension (mp/molec_models.py:105-106, 291-292, 301-302). -/
def dropDims (conf : DropConf 𝕜) (m : Mask ι) (xs : List (List (ι → 𝕜))) : Py (List (List (ι → 𝕜))) :=
  mapE (fun (xd : List (ι → 𝕜) × Nat) => dropout conf (m xd.2) xd.1) xs.zipIdx

/-- `if self.apply_dropout_before == 'lin1'` (mp/models.py:232-233, mp/molec_models.py:139-140, 328-329, 482-483). -/
def dropLin1 (conf : DropConf 𝕜) (m : Nat → ι → Bool) (x : List (ι → 𝕜)) : Py (List (ι → 𝕜)) :=
  if conf.before = "lin1" then dropout conf m x else .ok x

/-- `if self.apply_dropout_before == 'final_readout'` (mp/models.py:238-239, mp/molec_models.py:145-146, 334-335, 488-489),
on the stacked tensors. -/
def dropStack (conf : DropConf 𝕜) (m : Mask ι) (new : List (List (ι → 𝕜))) : Py (List (List (ι → 𝕜))) :=
  if conf.before = "final_readout" then dropDims conf m new else .ok new

/-- `if self.apply_dropout_before not in ['lin1', 'final_readout']` (mp/models.py:246-247, mp/molec_models.py:153-154,
342-343, 496-497). -/
def dropLin2 (conf : DropConf 𝕜) (m : Nat → ι → Bool) (x : List (ι → 𝕜)) : Py (List (ι → 𝕜)) :=
  if conf.before ≠ "lin1" ∧ conf.before ≠ "final_readout" then dropout conf m x else .ok x

/-- `SparseNet.readoutPart` with dropout (mp/models.py:219-254, mp/molec_models.py:126-160, 315-349, 472-500): in front
of the first linear maps, of the final readout, or, for all other values of `apply_dropout_before`, of the last linear
map. -/
def SparseNet.readoutDrop {Lv : Type} (conf : DropConf 𝕜) (m : Mask ι) (net : SparseNet (ι → 𝕜) Lv)
    (data : Complex (ι → 𝕜) L) (outs : List (List (List (ι → 𝕜)))) : Py (List (ι → 𝕜)) := do
  let xs ← finalRows net.jump outs
  let pool ← getPoolingFn net.readout
  let pooled ← poolComplex 𝕜 pool data net.maxDim xs
  let sel ← mapE (listGet pooled) net.dims
  let new ← mapE (fun (xd : (List (ι → 𝕜) × Nat) × Nat) => do
    let x ← dropLin1 conf (m xd.2) xd.1.1
    let lin1 ← listGet net.lin1s xd.1.2
    return x.map fun r => net.act (lin1 r)) (sel.zip net.dims).zipIdx
  stackable new
  let new ← dropStack conf m new
  let x ← stackReduce 𝕜 net.finalReadout new
  let x ← dropLin2 conf (m 0) x
  return x.map net.lin2

/-- `SparseCIN.forward` and `CINpp.forward` with dropout (mp/models.py:194-254); `level` is that of the layers in
training or in evaluation mode. -/
def SparseNet.forwardDrop {Lv : Type} (conf : DropConf 𝕜) (m : Mask ι)
    (level : Lv → MPParams (ι → 𝕜) → Py (List (ι → 𝕜))) (net : SparseNet (ι → 𝕜) Lv) (data : Complex (ι → 𝕜) L) :
    Py (List (ι → 𝕜)) := do
  let out ← runConvs (fun data => data.getAllCochainParams net.maxDim true false)
    (convForward level) data net.convs
  net.readoutDrop conf m out.1 out.2

/-- The loop over the layers of `OGBEmbedSparseCIN` (mp/molec_models.py:296-313), with dropout after every layer;
`ms c` is the mask of layer `c`. -/
def runConvsDrop {Cv : Type} (conf : DropConf 𝕜) (ms : Nat → Mask ι)
    (params : Complex (ι → 𝕜) L → Py (List (MPParams (ι → 𝕜))))
    (conv : Cv → List (MPParams (ι → 𝕜)) → Py (List (List (ι → 𝕜)))) :
    Nat → Complex (ι → 𝕜) L → List Cv → Py (Complex (ι → 𝕜) L × List (List (List (ι → 𝕜))))
  | _, data, [] => .ok (data, [])
  | c, data, cv :: cs => do
    let ps ← params data
    let xs ← conv cv ps
    let xs ← dropDims conf (ms c) xs
    let data ← data.setXs (xs.map some)
    let rest ← runConvsDrop conf ms params conv (c + 1) data cs
    return (rest.1, xs :: rest.2)

/-- `EmbedSparseCIN.forward` and `EmbedCINpp.forward` with dropout (mp/molec_models.py:90-161): the embedded features go
through dropout too, with mask `mi`. -/
def EmbedNet.forwardDrop {Lv : Type} (conf : DropConf 𝕜) (mi m : Mask ι)
    (level : Lv → MPParams (ι → 𝕜) → Py (List (ι → 𝕜))) (net : EmbedNet (ι → 𝕜) Lv) (data : Complex (ι → 𝕜) L) :
    Py (List (ι → 𝕜)) := do
  checkNodes data
  let ps ← data.getAllCochainParams net.net.maxDim true false
  let xs ← net.init.forward ps
  let xs ← dropDims conf mi xs
  let data ← data.setXs (xs.map some)
  net.net.forwardDrop conf m level data

/-- `OGBEmbedSparseCIN.forward` and `OGBEmbedCINpp.forward` with dropout (mp/molec_models.py:274-349): the embedded features
have their own rate, and the outputs of the layers go through dropout too. -/
def EmbedNet.forwardDropOGB {Lv : Type} (confIn conf : DropConf 𝕜) (mi : Mask ι) (ms : Nat → Mask ι) (m : Mask ι)
    (level : Lv → MPParams (ι → 𝕜) → Py (List (ι → 𝕜))) (net : EmbedNet (ι → 𝕜) Lv) (data : Complex (ι → 𝕜) L) :
    Py (List (ι → 𝕜)) := do
  checkNodes data
  let ps ← data.getAllCochainParams net.net.maxDim true false
  let xs ← net.init.forward ps
  let xs ← dropDims confIn mi xs
  let data ← data.setXs (xs.map some)
  let out ← runConvsDrop conf ms (fun data => data.getAllCochainParams net.net.maxDim true false)
    (convForward level) 0 data net.net.convs
  net.net.readoutDrop conf m out.1 out.2

/-- The last lines of the other models (mp/models.py:103-106, 413-416, 537-539, 606-608, 655-657, mp/graph_models.py:79-82,
142-145, 197-200, 260-263): dropout and the last linear map, on the rows that come before. -/
def lastLayer (conf : DropConf 𝕜) (m : Mask ι) (lin2 : (ι → 𝕜) → ι → 𝕜) (rows : Py (List (ι → 𝕜))) :
    Py (List (ι → 𝕜)) := do
  let x ← rows
  let x ← dropout conf (m 0) x
  return x.map lin2

/-- `CIN0.forward` with dropout (mp/models.py:80-106). The rows in front of the dropout are those of the model with the
identity in place of `lin2`; so below. -/
def CINNet.forwardDrop {Lv : Type} (conf : DropConf 𝕜) (m : Mask ι)
    (level : Lv → MPParams (ι → 𝕜) → Py (List (ι → 𝕜))) (net : CINNet (ι → 𝕜) Lv) (data : Complex (ι → 𝕜) L) :
    Py (List (ι → 𝕜)) :=
  lastLayer conf m net.lin2 (CINNet.forward 𝕜 level { net with lin2 := id } data)

/-- `EdgeCIN0.forward` with dropout (mp/models.py:382-416). -/
def EdgeNet.forwardDrop {Lv : Type} (conf : DropConf 𝕜) (m : Mask ι)
    (level : Lv → MPParams (ι → 𝕜) → Py (List (ι → 𝕜))) (net : EdgeNet (ι → 𝕜) Lv) (data : Complex (ι → 𝕜) L) :
    Py (List (ι → 𝕜)) :=
  lastLayer conf m net.lin2 (EdgeNet.forward 𝕜 level { net with lin2 := id } data)

/-- `MessagePassingAgnostic.forward` with dropout (mp/models.py:643-658). -/
def AgnosticNet.forwardDrop (conf : DropConf 𝕜) (m : Mask ι) (net : AgnosticNet (ι → 𝕜)) (data : Complex (ι → 𝕜) L) :
    Py (List (ι → 𝕜)) :=
  lastLayer conf m net.lin2 (AgnosticNet.forward 𝕜 { net with lin2 := id } data)

/-- The `forward` of `GIN0`, `GIN`, `GIN0WithJK` and `GINWithJK` in evaluation mode, with dropout
(mp/graph_models.py:72-82, 132-145, 190-200, 250-263). -/
def GINNet.forwardDrop (conf : DropConf 𝕜) (m : Mask ι) (net : GINNet 𝕜 (ι → 𝕜)) (data : GData (ι → 𝕜)) :
    Py (List (ι → 𝕜)) :=
  lastLayer conf m net.lin2 (GINNet.forward { net with lin2 := id } data)

/-- The same models in training mode, with dropout. -/
def GINTrainNet.forwardDrop (conf : DropConf 𝕜) (m : Mask ι) (net : GINTrainNet 𝕜 (ι → 𝕜)) (data : GData (ι → 𝕜)) :
    Py (List (ι → 𝕜)) :=
  lastLayer conf m net.lin2 (GINTrainNet.forward { net with lin2 := id } data)

end

end Verif
