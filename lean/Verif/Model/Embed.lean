import Verif.Model.Models

/-!
# Embedding networks (mp/layers.py:473-619, mp/molec_models.py, mp/ring_exp_models.py)

As in `Verif.Model.Models`: evaluation mode, learned maps are arbitrary functions on rows, rows of all
widths are members of one type (so the assertions on the width of the inputs are not modelled).
-/

namespace Verif

variable {𝕜 R L : Type}

/-- `InitReduceConv.forward` (mp/layers.py:484-487): one row per cell up to the largest cell id of the
incidence. Indexing `None` raises `TypeError`. -/
def initReduce (agg : List R → R) (boundaryX : List R) (boundaryIndex : Option (List (Nat × Nat))) :
    Py (List R) :=
  match boundaryIndex with
  | none => .error .type
  | some bi => do
    let features ← indexSelect boundaryX (bi.map Prod.fst)
    let n ← Cochain.maxPlusOne (bi.map Prod.snd)
    scatter agg n (bi.map Prod.snd) features

/-- The parameters of `EmbedVEWithReduce` and `OGBEmbedVEWithReduce` (mp/layers.py:490-510):
embeddings of vertices and (optionally) edges, and the reduction. -/
structure EmbedInit (R : Type) where
  vEmbed : R → R
  eEmbed : Option (R → R)
  reduce : List R → R
  /-- `· / 2.` -/
  half : R → R

/-- The embedded edge features (mp/layers.py:533-538, 563-568): the embedding of the features if there
are some (`e_embed_layer` must be there), else the reduced vertex features. -/
def EmbedInit.edges (l : EmbedInit R) (reduced : List R) (ex : Option (List R)) : Py (List R) :=
  match ex with
  | none => .ok reduced
  | some x =>
    match l.eEmbed with
    | none => .error .assertion
    | some f => .ok (x.map f)

/-- `AbstractEmbedVEWithReduce.forward` (mp/layers.py:520-547). -/
def EmbedInit.forward (l : EmbedInit R) (ps : List (MPParams R)) : Py (List (List R)) :=
  match ps with
  | [] => .error .assertion
  | v :: rest =>
    if 2 < rest.length then .error .assertion
    else
      match v.x with
      | none => .error .assertion
      | some x =>
        match rest with
        | [] => .ok [x.map l.vEmbed]
        | e :: rest => do
          let reduced ← initReduce l.reduce (x.map l.vEmbed) e.boundaryIndex
          let ex ← l.edges reduced e.x
          match rest with
          | [] => return [x.map l.vEmbed, ex]
          | c :: _ => do
            let cx ← initReduce l.reduce reduced c.boundaryIndex
            return [x.map l.vEmbed, ex, cx.map l.half]

/-- `data.cochains[0].x.size(-1)` (mp/molec_models.py:95, 278, 438): what it needs. -/
def checkNodes (data : Complex R L) : Py Unit :=
  match data.cochains[0]? with
  | none => .error .key
  | some c =>
    match c.x with
    | none => .error .attribute
    | some _ => .ok ()

/-- The parameters of `EmbedSparseCIN`, `EmbedCINpp`, `OGBEmbedSparseCIN`, `OGBEmbedCINpp`
(mp/molec_models.py:12-72, 167-199, 202-258, 351-383). -/
structure EmbedNet (R Lv : Type) where
  init : EmbedInit R
  net : SparseNet R Lv

/-- `EmbedSparseCIN.forward` and the variants (mp/molec_models.py:90-161, 274-346).
Simplified: the assertion on the width of the edge features is part of the width checks. -/
def EmbedNet.forward {Lv : Type} (𝕜 : Type) [Field 𝕜] [AddCommMonoid R] [Module 𝕜 R]
    (level : Lv → MPParams R → Py (List R)) (net : EmbedNet R Lv) (data : Complex R L) :
    Py (List R) := do
  checkNodes data
  let ps ← data.getAllCochainParams net.net.maxDim true false
  let xs ← net.init.forward ps
  let data ← data.setXs (xs.map some)
  net.net.forward 𝕜 level data

/-- `if len(params) > 1: params[1].up_index = None` (mp/molec_models.py:447-448, 460-461). -/
def dropRings : List (MPParams R) → List (MPParams R)
  | v :: e :: rest => v :: { e with upIndex := none } :: rest
  | ps => ps

/-- `EmbedSparseCINNoRings.forward` (mp/molec_models.py:434-500); the constructor fixes `max_dim = 1`
and `readout_dims = [0, 1]` (lines 402-403). -/
def EmbedNet.forwardNoRings {Lv : Type} (𝕜 : Type) [Field 𝕜] [AddCommMonoid R] [Module 𝕜 R]
    (level : Lv → MPParams R → Py (List R)) (net : EmbedNet R Lv) (data : Complex R L) :
    Py (List R) := do
  let fixed := { net.net with maxDim := 1, readoutDims := some [0, 1], jump := none }
  checkNodes data
  let ps ← data.getAllCochainParams 1 true false
  let xs ← net.init.forward (dropRings ps)
  let data ← data.setXs (xs.map some)
  let out ← runConvs (fun data => do
      let ps ← data.getAllCochainParams 1 true false
      return dropRings ps)
    (convForward level) data fixed.convs
  fixed.readoutPart 𝕜 out.1 out.2

/-- A `GINEConv` of PyTorch Geometric (external contract): `nn((1 + eps) x_i + Σ_j relu(x_j + e_ji))`;
`msg x e` is `relu(x + e)`. -/
structure GINELevel (𝕜 R : Type) where
  msg : R → R → R
  nn : R → R
  eps : 𝕜

/-- `GINEConv.forward` (external contract): messages from the first to the second row of the index. -/
def GINELevel.forward [Field 𝕜] [AddCommMonoid R] [Module 𝕜 R] (l : GINELevel 𝕜 R)
    (x : List R) (index : List (Nat × Nat)) (attr : List R) : Py (List R) := do
  let out ← messageAndAggregate (.withAttr l.msg) aggAdd .sourceToTarget x.length x index
    (some (some attr))
  let out ← addScaled l.eps out x
  return out.map l.nn

/-- The parameters of `EmbedGIN` (mp/molec_models.py:513-549). -/
structure EmbedGIN (𝕜 R : Type) where
  init : EmbedInit R
  convs : List (GINELevel 𝕜 R)
  readout : String := "sum"
  act : R → R
  lin1 : R → R
  lin2 : R → R

/-- The loop over the layers of `EmbedGIN` (mp/molec_models.py:587-588). -/
def runGINE [Field 𝕜] [AddCommMonoid R] [Module 𝕜 R] (index : List (Nat × Nat)) (attr : List R) :
    List R → List (GINELevel 𝕜 R) → Py (List R)
  | x, [] => .ok x
  | x, l :: ls => do
    let x ← l.forward x index attr
    runGINE index attr x ls

/-- The edges `EmbedGIN` passes messages along (mp/molec_models.py:576-585).
Simplified: without edges the attribute tensor has one row that no message reads; the model has none.
`up_attr` is `None` only if the edges have no features, on which `GINEConv` fails. -/
def ginEdges (p : MPParams R) : Py (List (Nat × Nat) × List R) :=
  match p.upIndex, p.upAttr with
  | none, _ => .ok ([], [])
  | some _, none => .error .attribute
  | some ui, some ua => .ok (ui, ua)

/-- `EmbedGIN.forward` (mp/molec_models.py:559-603). -/
def EmbedGIN.forward [Field 𝕜] [AddCommMonoid R] [Module 𝕜 R] (net : EmbedGIN 𝕜 R)
    (data : Complex R L) : Py (List R) := do
  checkNodes data
  let ps ← data.getAllCochainParams 1 true false
  let xs ← net.init.forward ps
  let data ← data.setXs (xs.map some)
  let p ← data.getCochainParams 0 0 true false
  let e ← ginEdges p
  let x ← runGINE e.1 e.2 (p.x.getD []) net.convs
  let n ← batchSize data
  let pool ← getPoolingFn net.readout
  let pooled ← poolDim 𝕜 pool data 0 n (x, 0)
  return pooled.map fun r => net.lin2 (net.act (net.lin1 r))

/-- The parameters of `RingSparseCIN` (mp/ring_exp_models.py:18-40). -/
structure RingNet (R Lv : Type) where
  initLayer : R → R
  convs : List (List Lv)
  maxDim : Nat := 2
  lin1 : R → R

/-- `data.nodes.x = self.init_layer(data.nodes.x)` (mp/ring_exp_models.py:52). -/
def setNodes (f : R → R) (data : Complex R L) : Py (Complex R L) :=
  match data.cochains with
  | [] => .error .attribute
  | c :: cs =>
    match c.x with
    | none => .error .type
    | some x => do
      let c ← c.setX (some (x.map f))
      return { data with cochains := c :: cs }

/-- `x[mask]` for a boolean mask; torch raises `IndexError` when the shapes differ.
Simplified: without a mask torch would return the matrix with one more dimension; the model raises
`TypeError`. -/
def maskRows (x : List R) (mask : Option (List Bool)) : Py (List R) :=
  match mask with
  | none => .error .type
  | some mask =>
    if mask.length = x.length then .ok (((x.zip mask).filter Prod.snd).map Prod.fst)
    else .error .index

/-- `RingSparseCIN.forward` (mp/ring_exp_models.py:48-71); without layers `xs` is `None`. -/
def RingNet.forward {Lv : Type} (level : Lv → MPParams R → Py (List R)) (net : RingNet R Lv)
    (data : Complex R L) : Py (List R) := do
  let data ← setNodes net.initLayer data
  let out ← runConvs (fun data => data.getAllCochainParams net.maxDim true false)
    (convForward level) data net.convs
  match out.2.getLast? with
  | none => .error .type
  | some xs => do
    let x ← listGet xs 0
    match out.1.cochains[0]? with
    | none => .error .attribute
    | some nodes => do
      let x ← maskRows x nodes.mask
      return x.map net.lin1

/-- The parameters of `EdgeCIN0` (mp/models.py:294-348); `convs` holds the two levels of each
`EdgeCINConv` (mp/layers.py:127-143). -/
structure EdgeNet (R Lv : Type) where
  convs : List (List Lv)
  includeTop : Bool := true
  updateTop : Bool := true
  topNNs : List (R → R) := []
  jump : Option (List R → R) := none
  readout : String := "sum"
  act : R → R
  lin1 : R → R
  lin2 : R → R

/-- `xs + [top_x]` or `xs` (mp/models.py:391-395): the features of the 2-cells go through a network
after every layer but the last, if they are used and there are 2-cells in the batch. A network applied
to `None` raises `TypeError`. -/
def EdgeNet.written {Lv : Type} (net : EdgeNet R Lv) (c : Nat) (data : Complex R L)
    (xs : List (List R)) : Py (List (List R)) :=
  if net.includeTop && net.updateTop && decide (c + 1 < net.convs.length) then
    match data.cochains[2]? with
    | none => .ok xs
    | some two => do
      let nn ← listGet net.topNNs c
      match two.x with
      | none => .error .type
      | some tx => return xs ++ [tx.map nn]
  else .ok xs

/-- The loop over the layers of `EdgeCIN0` (mp/models.py:385-395), from layer `c` on. -/
def EdgeNet.run {Lv : Type} (level : Lv → MPParams R → Py (List R)) (net : EdgeNet R Lv) :
    Nat → Complex R L → List (List Lv) → Py (Complex R L × List (List (List R)))
  | _, data, [] => .ok (data, [])
  | c, data, conv :: convs => do
    let ps ← data.getAllCochainParams 1 net.includeTop
    let xs ← convForward level conv ps
    let ws ← net.written c data xs
    let data ← data.setXs (ws.map some)
    let rest ← EdgeNet.run level net (c + 1) data convs
    return (rest.1, xs :: rest.2)

/-- `EdgeCIN0.forward` (mp/models.py:382-413). -/
def EdgeNet.forward {Lv : Type} (𝕜 : Type) [Field 𝕜] [AddCommMonoid R] [Module 𝕜 R]
    (level : Lv → MPParams R → Py (List R)) (net : EdgeNet R Lv) (data : Complex R L) :
    Py (List R) := do
  let out ← net.run level 0 data net.convs
  let xs ← finalRows net.jump out.2
  let pool ← getPoolingFn net.readout
  let pooled ← poolComplex 𝕜 pool out.1 1 xs
  let x ← stackReduce 𝕜 "sum" pooled
  return x.map fun r => net.lin2 (net.act (net.lin1 r))

end Verif
