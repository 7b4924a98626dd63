import Verif.Model.Models
import Verif.Model.Embed
import Verif.Model.Partial

/-!
# What a call of a network leaves behind

`data.set_xs(xs)` in the loop over the layers (mp/models.py:87-90, 199-207 and in the other networks) assigns to the batch that was given, so the caller
has the features of the last layer in it afterwards.
-/

namespace Verif

variable {R L Lv : Type}

/-- `SparseCIN.forward` and `CINpp.forward` (mp/models.py:194-254) with the batch they leave behind. -/
def SparseNet.call (𝕜 : Type) [Field 𝕜] [AddCommMonoid R] [Module 𝕜 R]
    (level : Lv → MPParams R → Py (List R)) (net : SparseNet R Lv) (data : Complex R L) : Py (Complex R L × List R) := do
  let out ← runConvs (fun data => data.getAllCochainParams net.maxDim true false) (convForward level) data net.convs
  let pred ← net.readoutPart 𝕜 out.1 out.2
  return (out.1, pred)

/-- The part of `CIN0.forward` after the layers (mp/models.py:98-106). -/
def CINNet.readoutPart (𝕜 : Type) [Field 𝕜] [AddCommMonoid R] [Module 𝕜 R] (net : CINNet R Lv) (data : Complex R L)
    (outs : List (List (List R))) : Py (List R) := do
  let xs ← finalRows net.jump outs
  let pool ← getPoolingFn net.readout
  let pooled ← poolComplex 𝕜 pool data net.maxDim xs
  let x ← stackReduce 𝕜 "sum" pooled
  return x.map fun r => net.lin2 (net.act (net.lin1 r))

/-- `CIN0.forward` (mp/models.py:84-106) with the batch it leaves behind. -/
def CINNet.call (𝕜 : Type) [Field 𝕜] [AddCommMonoid R] [Module 𝕜 R]
    (level : Lv → MPParams R → Py (List R)) (net : CINNet R Lv) (data : Complex R L) : Py (Complex R L × List R) := do
  let out ← runConvs (fun data => data.getAllCochainParams net.maxDim) (convForward level) data net.convs
  let pred ← net.readoutPart 𝕜 out.1 out.2
  return (out.1, pred)

/-- `EmbedSparseCIN.forward` and the variants (mp/molec_models.py:90-161, 274-346) with the batch they leave behind. -/
def EmbedNet.call (𝕜 : Type) [Field 𝕜] [AddCommMonoid R] [Module 𝕜 R]
    (level : Lv → MPParams R → Py (List R)) (net : EmbedNet R Lv) (data : Complex R L) : Py (Complex R L × List R) := do
  checkNodes data
  let ps ← data.getAllCochainParams net.net.maxDim true false
  let xs ← net.init.forward ps
  let data ← data.setXs (xs.map some)
  net.net.call 𝕜 level data

/-- The part of `RingSparseCIN.forward` after the layers (mp/ring_exp_models.py:61-64); without layers `xs` is `None`. -/
def RingNet.readoutPart (net : RingNet R Lv) (data : Complex R L) (outs : List (List (List R))) : Py (List R) :=
  match outs.getLast? with
  | none => .error .type
  | some xs => do
    let x ← listGet xs 0
    match data.cochains[0]? with
    | none => .error .attribute
    | some nodes => do
      let x ← maskRows x nodes.mask
      return x.map net.lin1

/-- `RingSparseCIN.forward` (mp/ring_exp_models.py:48-71) with the batch it leaves behind. -/
def RingNet.call (level : Lv → MPParams R → Py (List R)) (net : RingNet R Lv) (data : Complex R L) :
    Py (Complex R L × List R) := do
  let data ← setNodes net.initLayer data
  let out ← runConvs (fun data => data.getAllCochainParams net.maxDim true false) (convForward level) data net.convs
  let pred ← net.readoutPart out.1 out.2
  return (out.1, pred)

/-- `RingSparseCIN.forward` with `include_partial=True` (mp/ring_exp_models.py:48-71): the prediction and the intermediate
results. -/
def RingNet.forwardPartial (level : Lv → MPParams R → Py (List R)) (net : RingNet R Lv) (data : Complex R L) :
    Py (List R × Results (List R)) := do
  let data ← setNodes net.initLayer data
  let out ← runConvs (fun data => data.getAllCochainParams net.maxDim true false) (convForward level) data net.convs
  let pred ← net.readoutPart out.1 out.2
  return (pred, layerResults out.2 ++ [(.out, pred)])

/-- `EdgeCIN0.forward` (mp/models.py:382-413) with the batch it leaves behind. -/
def EdgeNet.call (𝕜 : Type) [Field 𝕜] [AddCommMonoid R] [Module 𝕜 R]
    (level : Lv → MPParams R → Py (List R)) (net : EdgeNet R Lv) (data : Complex R L) : Py (Complex R L × List R) := do
  let out ← net.run level 0 data net.convs
  let xs ← finalRows net.jump out.2
  let pool ← getPoolingFn net.readout
  let pooled ← poolComplex 𝕜 pool out.1 1 xs
  let x ← stackReduce 𝕜 "sum" pooled
  return (out.1, x.map fun r => net.lin2 (net.act (net.lin1 r)))

/-- `n + 1` calls with the same batch: what the last one returns. -/
def callAgain (call : Complex R L → Py (Complex R L × List R)) : Nat → Complex R L → Py (Complex R L × List R)
  | 0, data => call data
  | n + 1, data => do
    let r ← call data
    callAgain call n r.1

end Verif
