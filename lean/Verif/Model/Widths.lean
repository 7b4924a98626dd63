import Verif.Model.GraphNets

/-!
# Widths of the feature matrices (mp/layers.py, mp/models.py, mp/molec_models.py, mp/graph_models.py,
mp/ring_exp_models.py, mp/nn.py)

The models of the layers and networks (`Verif.Model.Layers`, `Verif.Model.Models`,
`Verif.Model.Embed`, `Verif.Model.GraphNets`) take learned maps as arbitrary functions on rows of one
type. Here it is the other way round: the constructors are modelled with the sizes they give to their
modules, the inputs are numbers of columns, and `forward` computes numbers of columns or the exception
that torch raises when sizes do not match. Values, numbers of rows and parameters other than sizes are
left out. Sizes are positive in torch (`Linear` cannot be initialised with zero inputs); the model does
not need this.
-/

namespace Verif

/-- A module with its sizes (external contract): `Linear(i, o)`; `BatchNorm1d(n)` and `LayerNorm(n)`;
activations and `Identity`, which take any size. -/
inductive Mod
  | linear (i o : Nat)
  | norm (n : Nat)
  | pointwise
  deriving DecidableEq

/-- The number of columns of the output of a module: `RuntimeError` if the input has the wrong size. -/
def Mod.out : Mod → Nat → Py Nat
  | .linear i o, w => if w = i then .ok o else .error .runtime
  | .norm n, w => if w = n then .ok n else .error .runtime
  | .pointwise, w => .ok w

/-- `Sequential` (external contract). -/
def seqOut : List Mod → Nat → Py Nat
  | [], w => .ok w
  | m :: ms, w => do
    let w ← m.out w
    seqOut ms w

/-- `get_nonlinearity` (mp/nn.py:7-27). -/
def getNonlinearity (name : String) : Py Mod :=
  if name = "relu" then .ok .pointwise
  else if name = "elu" then .ok .pointwise
  else if name = "id" then .ok .pointwise
  else if name = "sigmoid" then .ok .pointwise
  else if name = "tanh" then .ok .pointwise
  else .error .notImplemented

/-- `get_graph_norm` (mp/nn.py:39-47): the class, to be called with a size. -/
def getGraphNorm (name : String) : Py (Nat → Mod) :=
  if name = "bn" then .ok .norm
  else if name = "ln" then .ok .norm
  else if name = "id" then .ok fun _ => .pointwise
  else .error .value

/-- The modes of `JumpingKnowledge` that need no sizes. -/
inductive Jump
  | cat | max
  deriving DecidableEq

/-- `JumpingKnowledge(mode)` (external contract): an assertion rejects other modes, and `'lstm'` needs
sizes that are not passed. -/
def jumpingKnowledge (mode : String) : Py Jump :=
  if mode = "cat" then .ok .cat
  else if mode = "max" then .ok .max
  else .error .assertion

/-- `JumpingKnowledge(jump_mode) if jump_mode is not None else None` (mp/models.py:51, 151, 351). -/
def makeJump (mode : Option String) : Py (Option Jump) :=
  match mode with
  | none => .ok none
  | some mode => some <$> jumpingKnowledge mode

/-- The columns after `JumpingKnowledge` of layer outputs (external contract): `torch.cat` adds the
columns, `torch.stack` for the maximum needs equal ones; both reject an empty list. -/
def Jump.out : Jump → List Nat → Py Nat
  | _, [] => .error .runtime
  | .cat, ws => .ok ws.sum
  | .max, w :: ws => if ws.all (· == w) then .ok w else .error .runtime

/-- `a + b` and `a * b` for matrices with the same number of rows (external contract): torch
broadcasts a single column. -/
def addWidths (a b : Nat) : Py Nat :=
  if a = b then .ok a
  else if a = 1 then .ok b
  else if b = 1 then .ok a
  else .error .runtime

/-- `a += b` and `a[…] = b`: the result has to have the shape of `a` (external contract). -/
def addInto (a b : Nat) : Py Nat :=
  if b = a then .ok a
  else if b = 1 then .ok a
  else .error .runtime

/-! ## Complexes and the parameters of message passing -/

/-- A dimension of a complex: the number of columns of the features (`None` without features) and which
of the indices are there.
Simplified: an index comes with the matching `shared_coboundaries` or `shared_boundaries`. -/
structure LevelShape where
  x : Option Nat
  up : Bool
  down : Bool
  boundary : Bool
  deriving DecidableEq

/-- `CochainMessagePassingParams` (mp/cell_mp.py:527-550). -/
structure ParamShape where
  x : Option Nat
  up : Bool
  upAttr : Option Nat
  down : Bool
  downAttr : Option Nat
  boundary : Bool
  boundaryAttr : Option Nat
  deriving DecidableEq

/-- The features of the cells one dimension below (data/complex.py:586, 593). -/
def belowWidth (data : List LevelShape) (dim : Nat) : Option Nat :=
  match dim with
  | 0 => none
  | d + 1 => (data[d]?).bind LevelShape.x

/-- The upper part of `get_cochain_params` (data/complex.py:572-580). -/
def upShape (cells : LevelShape) (above : Option LevelShape) (dim maxDim : Nat) (includeTop : Bool) :
    Bool × Option Nat :=
  match cells.up, above with
  | true, some above => (true, if dim < maxDim || includeTop then above.x else none)
  | _, _ => (false, none)

/-- The parameters that `get_cochain_params` returns for the cells (data/complex.py:572-602). -/
def levelParams (data : List LevelShape) (cells : LevelShape) (dim maxDim : Nat)
    (includeTop includeDown : Bool) : ParamShape where
  x := cells.x
  up := (upShape cells data[dim + 1]? dim maxDim includeTop).1
  upAttr := (upShape cells data[dim + 1]? dim maxDim includeTop).2
  down := includeDown && cells.down
  downAttr := if includeDown && cells.down then belowWidth data dim else none
  boundary := cells.boundary
  boundaryAttr := if cells.boundary then belowWidth data dim else none

/-- `get_cochain_params` (data/complex.py:548-602). -/
def paramShape (data : List LevelShape) (dim maxDim : Nat) (includeTop includeDown : Bool) :
    Py ParamShape :=
  match data[dim]? with
  | none => .error .notImplemented
  | some cells => .ok (levelParams data cells dim maxDim includeTop includeDown)

/-- `get_all_cochain_params` (data/complex.py:604-626). A complex has at least its vertices. -/
def paramShapes (data : List LevelShape) (maxDim : Nat := 2) (includeTop includeDown : Bool := true) :
    Py (List ParamShape) :=
  mapE (fun dim => paramShape data dim maxDim includeTop includeDown)
    (List.range (min maxDim (data.length - 1) + 1))

/-- `set_xs` (data/complex.py:644-648): more features than dimensions are an assertion error. -/
def setWidths : List LevelShape → List Nat → Py (List LevelShape)
  | data, [] => .ok data
  | [], _ :: _ => .error .assertion
  | l :: data, w :: ws => do
    let rest ← setWidths data ws
    return { l with x := some w } :: rest

/-- `self.propagate` needs the features (see `propagate`). -/
def needX (x : Option Nat) : Py Nat :=
  match x with
  | none => .error .attribute
  | some w => .ok w

/-- The loop over the dimensions of a convolution (mp/layers.py:53-59, 118-124, 145-151, 333-342). -/
def widthLoop {Lv : Type} (forward : Lv → ParamShape → Py Nat) :
    List Lv → List ParamShape → Py (List Nat)
  | _, [] => .ok []
  | [], _ :: _ => .error .index
  | level :: levels, p :: ps => do
    let out ← forward level p
    let rest ← widthLoop forward levels ps
    return out :: rest

/-- `forward` of the convolutions (mp/layers.py:53-59, 118-124, 145-151, 333-342). -/
def convWidths {Lv : Type} (forward : Lv → ParamShape → Py Nat) (levels : List Lv)
    (ps : List ParamShape) : Py (List Nat) := do
  pyAssert (decide (ps.length ≤ levels.length))
  widthLoop forward levels ps

/-- The loop over the layers (mp/models.py:84-97, 199-217): the data and the outputs of every layer. -/
def runWidths {Lv : Type} (params : List LevelShape → Py (List ParamShape))
    (forward : Lv → ParamShape → Py Nat) :
    List LevelShape → List (List Lv) → Py (List LevelShape × List (List Nat))
  | data, [] => .ok (data, [])
  | data, c :: cs => do
    let ps ← params data
    let ws ← convWidths forward c ps
    let data ← setWidths data ws
    let rest ← runWidths params forward data cs
    return (rest.1, ws :: rest.2)

/-- The columns that go to the pooling (mp/models.py:98-99, 219-220): those of the last layer, or the
jumping knowledge. `start` is `xs` before the layers: `None`, or the embedded features. -/
def finalWidths (jump : Option Jump) (start : Option (List Nat)) (outs : List (List Nat)) :
    Py (List Nat) :=
  match jump with
  | none =>
    match outs.getLast?.or start with
    | none => .error .type
    | some ws => .ok ws
  | some j => do
    let js ← collectJump outs
    mapE j.out js

/-- `pool_complex` (mp/nn.py:50-60, mp/models.py:66-75, 171-185, 368-377): `max_dim + 1` matrices with
as many columns as the first features. -/
def poolWidths (maxDim : Nat) (ws : List Nat) : Py (List Nat) :=
  match ws with
  | [] => .error .index
  | w :: _ => do
    let _ ← mapE (addInto w) (ws.take (maxDim + 1))
    if maxDim + 1 < ws.length then .error .index
    else return List.replicate (maxDim + 1) w

/-- `torch.stack(new_xs, dim=0)` and the final readout (mp/models.py:236-245). -/
def stackWidths (finalReadout : String) (ws : List Nat) : Py Nat :=
  match ws with
  | [] => .error .runtime
  | w :: ws =>
    if ws.all (· == w) then
      if finalReadout = "mean" then .ok w
      else if finalReadout = "sum" then .ok w
      else .error .notImplemented
    else .error .runtime

/-! ## `SparseCIN`, `CINpp` and the embedding networks -/

/-- A level of `SparseCINConv` (mp/layers.py:154-182, 285-331). `msgUp` is `none` for
`lambda xs: xs[0]` and otherwise what follows the `Catter` (lines 287-295, 263-268). -/
structure SparseWidths where
  upSize : Nat
  boundarySize : Nat
  msgUp : Option (List Mod)
  updateUp : List Mod
  updateBoundary : List Mod
  combine : List Mod
  deriving DecidableEq

/-- `msg_up_nn((up_x_j, up_attr))` (mp/layers.py:210-211, 287-295): `torch.cat` rejects `None`. -/
def msgUpOut (msgUp : Option (List Mod)) (x : Nat) (attr : Option Nat) : Py Nat :=
  match msgUp, attr with
  | none, _ => .ok x
  | some _, none => .error .type
  | some ms, some a => seqOut ms (x + a)

/-- The upper messages or the zeros in their place (mp/cell_mp.py:370-372, 518). -/
def SparseWidths.up (l : SparseWidths) (x : Nat) (p : ParamShape) : Py Nat :=
  if p.up then msgUpOut l.msgUp x p.upAttr else .ok l.upSize

/-- The boundary messages or the zeros in their place (mp/cell_mp.py:379-382, 522;
mp/layers.py:213-214): they run iff boundary features are given. -/
def boundaryOut (size : Nat) (p : ParamShape) : Py Nat :=
  match p.boundaryAttr with
  | none => .ok size
  | some b => if p.boundary then .ok b else .error .type

/-- `SparseCINCochainConv.forward` (mp/layers.py:184-199). -/
def SparseWidths.forward (l : SparseWidths) (p : ParamShape) : Py Nat := do
  let x ← needX p.x
  let up ← l.up x p
  let bnd ← boundaryOut l.boundarySize p
  let up ← addInto up x
  let bnd ← addInto bnd x
  let up ← seqOut l.updateUp up
  let bnd ← seqOut l.updateBoundary bnd
  seqOut l.combine (up + bnd)

/-- A level of `CINppConv` (mp/layers.py:216-260, 347-427). -/
structure PPWidths extends SparseWidths where
  downSize : Nat
  updateDown : List Mod
  deriving DecidableEq

/-- `CINppCochainConv.forward` (mp/layers.py:243-260): without lower messages (`use_down_msg` is
`False`) the lower part is zeros (mp/cell_mp.py:520). -/
def PPWidths.forward (l : PPWidths) (p : ParamShape) : Py Nat := do
  let x ← needX p.x
  let up ← l.toSparseWidths.up x p
  let bnd ← boundaryOut l.boundarySize p
  let up ← addInto up x
  let down ← addInto l.downSize x
  let bnd ← addInto bnd x
  let up ← seqOut l.updateUp up
  let down ← seqOut l.updateDown down
  let bnd ← seqOut l.updateBoundary bnd
  seqOut l.combine (up + down + bnd)

/-- The update networks of `SparseCINConv` and `CINppConv` (mp/layers.py:301-321, 386-416). -/
def updateNet (layerDim hidden : Nat) (norm : Nat → Mod) (act : Mod) : List Mod :=
  [.linear layerDim hidden, norm hidden, act, .linear hidden hidden, norm hidden, act]

/-- The upper message network of `SparseCINConv` and `CINppConv` (mp/layers.py:287-295, 362-370). -/
def msgUpNet (layerDim : Nat) (act : Mod) (useCoboundaries : Bool) : Option (List Mod) :=
  if useCoboundaries then some [.linear (layerDim * 2) layerDim, act] else none

/-- `SparseCINConv.__init__` without passed networks and with `up_msg_size`, `down_msg_size`,
`boundary_msg_size` equal to `layer_dim` (mp/layers.py:277-331, called in mp/models.py:144-150,
mp/molec_models.py:55-61, 246-252, 426-432, mp/ring_exp_models.py:32-38). -/
def sparseCINConv (maxDim layerDim hidden : Nat) (norm : Nat → Mod) (act : Mod)
    (useCoboundaries : Bool) : List SparseWidths :=
  List.replicate (maxDim + 1) {
    upSize := layerDim
    boundarySize := layerDim
    msgUp := msgUpNet layerDim act useCoboundaries
    updateUp := updateNet layerDim hidden norm act
    updateBoundary := updateNet layerDim hidden norm act
    combine := [.linear (hidden * 2) hidden, norm hidden, act] }

/-- `CINppConv.__init__` (mp/layers.py:347-427, called in mp/models.py:278-284,
mp/molec_models.py:193-199, 378-384); the levels built by `SparseCINConv.__init__` are replaced.
Simplified: the lower message network is left out, it is never called. -/
def cinppConv (maxDim layerDim hidden : Nat) (norm : Nat → Mod) (act : Mod)
    (useCoboundaries : Bool) : List PPWidths :=
  List.replicate (maxDim + 1) {
    upSize := layerDim
    boundarySize := layerDim
    downSize := layerDim
    msgUp := msgUpNet layerDim act useCoboundaries
    updateUp := updateNet layerDim hidden norm act
    updateDown := updateNet layerDim hidden norm act
    updateBoundary := updateNet layerDim hidden norm act
    combine := [.linear (hidden * 3) hidden, norm hidden, act] }

/-- `layer_dim = num_input_features if i == 0 else hidden` (mp/models.py:33, 143, 277, 313,
mp/molec_models.py:54, 192, 245, 377). -/
def layerDim (numInput hidden i : Nat) : Nat := if i = 0 then numInput else hidden

/-- The arguments of the constructors of `SparseCIN` and `CINpp` that concern sizes
(mp/models.py:120-125, 263-268); `numInput` is `num_input_features`. -/
structure SparseArgs where
  numInput : Nat
  numClasses : Nat
  numLayers : Nat
  hidden : Nat
  maxDim : Nat := 2
  jumpMode : Option String := none
  nonlinearity : String := "relu"
  readout : String := "sum"
  multiplier : Nat := 2
  useCoboundaries : Bool := false
  readoutDims : Option (List Nat) := some [0, 1, 2]
  finalReadout : String := "sum"
  graphNorm : String := "bn"

/-- A network as the constructor leaves it (mp/models.py:126-161). -/
structure SparseNetWidths (Lv : Type) where
  convs : List (List Lv)
  maxDim : Nat
  dims : List Nat
  jump : Option Jump
  act : Mod
  lin1s : List Mod
  finalReadout : String
  lin2 : Mod

/-- `self.readout_dims` (mp/models.py:129-132, mp/molec_models.py:29-32, 219-222). -/
def SparseArgs.dims (a : SparseArgs) : List Nat :=
  match a.readoutDims with
  | some dims => dims.filter fun d => d ≤ a.maxDim
  | none => List.range (a.maxDim + 1)

/-- The input size of `lin1s` (mp/models.py:152-160, mp/molec_models.py:63-71, 254-262). -/
def lin1Input (jumpMode : Option String) (numLayers hidden : Nat) : Nat :=
  if jumpMode = some "cat" then numLayers * hidden else hidden

/-- The body of the constructors of `SparseCIN` and `CINpp` (mp/models.py:126-161, 269-284), with the
constructor of the convolution as a parameter: it gets `layer_dim`, the normalisation and the
activation. -/
def SparseArgs.build {Lv : Type} (a : SparseArgs) (conv : Nat → (Nat → Mod) → Mod → List Lv) :
    Py (SparseNetWidths Lv) := do
  let _ ← getPoolingFn a.readout
  let norm ← getGraphNorm a.graphNorm
  let act ← getNonlinearity a.nonlinearity
  let jump ← makeJump a.jumpMode
  return {
    convs := (List.range a.numLayers).map fun i => conv (layerDim a.numInput a.hidden i) norm act
    maxDim := a.maxDim
    dims := a.dims
    jump := jump
    act := act
    lin1s := List.replicate (a.maxDim + 1)
      (.linear (lin1Input a.jumpMode a.numLayers a.hidden) (a.multiplier * a.hidden))
    finalReadout := a.finalReadout
    lin2 := .linear (a.multiplier * a.hidden) a.numClasses }

/-- `SparseCIN.__init__` (mp/models.py:120-161). -/
def SparseArgs.sparseCIN (a : SparseArgs) : Py (SparseNetWidths SparseWidths) :=
  a.build fun layerDim norm act =>
    sparseCINConv a.maxDim layerDim a.hidden norm act a.useCoboundaries

/-- `CINpp.__init__` (mp/models.py:263-284). -/
def SparseArgs.cinpp (a : SparseArgs) : Py (SparseNetWidths PPWidths) :=
  a.build fun layerDim norm act =>
    cinppConv a.maxDim layerDim a.hidden norm act a.useCoboundaries

/-- The part of `forward` after the layers (mp/models.py:219-254, mp/molec_models.py:126-161, 315-350). -/
def SparseNetWidths.readoutPart {Lv : Type} (net : SparseNetWidths Lv) (ws : List Nat) : Py Nat := do
  let pooled ← poolWidths net.maxDim ws
  let sel ← mapE (listGet pooled) net.dims
  let new ← mapE (fun (wd : Nat × Nat) => do
    let lin1 ← listGet net.lin1s wd.2
    seqOut [lin1, net.act] wd.1) (sel.zip net.dims)
  let w ← stackWidths net.finalReadout new
  net.lin2.out w

/-- `SparseCIN.forward` (mp/models.py:194-254): the number of columns of the output. -/
def SparseNetWidths.forward {Lv : Type} (level : Lv → ParamShape → Py Nat) (net : SparseNetWidths Lv)
    (data : List LevelShape) : Py Nat := do
  let out ← runWidths (fun data => paramShapes data net.maxDim true false) level data net.convs
  let ws ← finalWidths net.jump none out.2
  net.readoutPart ws

/-- An embedding of the input features (external contract): `Embedding` on a single column
(mp/layers.py:558-570), or an encoder of OGB with one table per column, which sums the embeddings of the
columns and has no table for further columns (`AtomEncoder`: 9, `BondEncoder`: 3).
Simplified: the sum over no columns is the number 0, on which the next step fails; the model raises
`IndexError` there, too. -/
inductive Encoder
  | embedding (o : Nat)
  | columns (tables o : Nat)
  deriving DecidableEq

/-- The columns of the embedded features; `_prepare_v_inputs` asserts a single column
(mp/layers.py:561, 568). -/
def Encoder.out : Encoder → Nat → Py Nat
  | .embedding o, w => if w = 1 then .ok o else .error .assertion
  | .columns tables o, w => if 1 ≤ w ∧ w ≤ tables then .ok o else .error .index

/-- `EmbedVEWithReduce` and `OGBEmbedVEWithReduce` (mp/layers.py:490-593). -/
structure EmbedWidths where
  v : Encoder
  e : Option Encoder

/-- `InitReduceConv.forward` (mp/layers.py:484-487): the columns of the boundary features; indexing
`None` raises `TypeError`. -/
def reduceOut (w : Nat) (boundary : Bool) : Py Nat := if boundary then .ok w else .error .type

/-- The embedded edge features (mp/layers.py:529-534): the same size as the vertex features is
asserted. -/
def EmbedWidths.edges (l : EmbedWidths) (vx : Nat) (ex : Option Nat) : Py Nat :=
  match ex with
  | none => .ok vx
  | some w =>
    match l.e with
    | none => .error .assertion
    | some enc => do
      let o ← enc.out w
      pyAssert (o == vx)
      return o

/-- `AbstractEmbedVEWithReduce.forward` (mp/layers.py:516-543). -/
def EmbedWidths.forward (l : EmbedWidths) (ps : List ParamShape) : Py (List Nat) :=
  match ps with
  | [] => .error .assertion
  | v :: rest =>
    if 2 < rest.length then .error .assertion
    else
      match v.x with
      | none => .error .assertion
      | some x => do
        let vx ← l.v.out x
        match rest with
        | [] => return [vx]
        | e :: rest => do
          let reduced ← reduceOut vx e.boundary
          let ex ← l.edges reduced e.x
          match rest with
          | [] => return [vx, ex]
          | c :: _ => do
            let cx ← reduceOut reduced c.boundary
            return [vx, ex, cx]

/-- The arguments of the embedding networks (mp/molec_models.py:20-25, 172-177, 210-216, 359-364):
`numClasses` is `out_size`; instead of `num_input_features` there is `embed_dim`. -/
structure EmbedArgs extends SparseArgs where
  embedDim : Option Nat := none
  embedEdge : Bool := false

/-- `if embed_dim is None: embed_dim = hidden` (mp/molec_models.py:34-35, 188-189, 224-225,
373-374). -/
def EmbedArgs.embed (a : EmbedArgs) : Nat := a.embedDim.getD a.hidden

/-- An embedding network as the constructor leaves it; `scalars` tells whether `forward` asserts scalar
input features. -/
structure EmbedNetWidths (Lv : Type) where
  scalars : Bool
  init : EmbedWidths
  readout : String
  net : SparseNetWidths Lv

/-- The body of the constructors of the embedding networks (mp/molec_models.py:26-72, 178-199, 216-263,
365-384): `readout` is only looked up in `forward` (`pool_complex`, mp/nn.py:51).
Simplified: `OGBEmbedSparseCIN` looks up the nonlinearity before the normalisation (lines 242-243), so
with two wrong names the other exception is raised. -/
def EmbedArgs.build {Lv : Type} (a : EmbedArgs) (scalars : Bool) (init : EmbedWidths)
    (conv : Nat → (Nat → Mod) → Mod → List Lv) : Py (EmbedNetWidths Lv) := do
  let net ← { a.toSparseArgs with numInput := a.embed, readout := "sum" }.build conv
  return { scalars := scalars, init := init, readout := a.readout, net := net }

/-- `EmbedSparseCIN.__init__` (mp/molec_models.py:20-72). -/
def EmbedArgs.embedSparseCIN (a : EmbedArgs) : Py (EmbedNetWidths SparseWidths) :=
  a.build true
    { v := .embedding a.embed, e := if a.embedEdge then some (.embedding a.embed) else none }
    fun layerDim norm act => sparseCINConv a.maxDim layerDim a.hidden norm act a.useCoboundaries

/-- `EmbedCINpp.__init__` (mp/molec_models.py:172-199). -/
def EmbedArgs.embedCINpp (a : EmbedArgs) : Py (EmbedNetWidths PPWidths) :=
  a.build true
    { v := .embedding a.embed, e := if a.embedEdge then some (.embedding a.embed) else none }
    fun layerDim norm act => cinppConv a.maxDim layerDim a.hidden norm act a.useCoboundaries

/-- `OGBEmbedSparseCIN.__init__` (mp/molec_models.py:210-263). -/
def EmbedArgs.ogbEmbedSparseCIN (a : EmbedArgs) : Py (EmbedNetWidths SparseWidths) :=
  a.build false
    { v := .columns 9 a.embed, e := if a.embedEdge then some (.columns 3 a.embed) else none }
    fun layerDim norm act => sparseCINConv a.maxDim layerDim a.hidden norm act a.useCoboundaries

/-- `OGBEmbedCINpp.__init__` (mp/molec_models.py:359-384). -/
def EmbedArgs.ogbEmbedCINpp (a : EmbedArgs) : Py (EmbedNetWidths PPWidths) :=
  a.build false
    { v := .columns 9 a.embed, e := if a.embedEdge then some (.columns 3 a.embed) else none }
    fun layerDim norm act => cinppConv a.maxDim layerDim a.hidden norm act a.useCoboundaries

/-- The assertions on the edge features (mp/molec_models.py:97-98, 452-453, 566-567). -/
def checkScalarEdges (data : List LevelShape) : Py Unit :=
  match belowWidth data 2 with
  | none => .ok ()
  | some w => pyAssert (w == 1)

/-- The assertions that the input features are scalars (mp/molec_models.py:95-98, 450-453, 564-567). -/
def checkScalars (data : List LevelShape) : Py Unit :=
  match data[0]? with
  | none => .error .key
  | some v => do
    let w ← needX v.x
    pyAssert (w == 1)
    checkScalarEdges data

/-- The assertions at the beginning of `forward`, which the OGB variants do not have. -/
def inputCheck (scalars : Bool) (data : List LevelShape) : Py Unit :=
  if scalars then checkScalars data else .ok ()

/-- `EmbedSparseCIN.forward` and `OGBEmbedSparseCIN.forward` (mp/molec_models.py:90-161, 281-350). -/
def EmbedNetWidths.forward {Lv : Type} (level : Lv → ParamShape → Py Nat) (net : EmbedNetWidths Lv)
    (data : List LevelShape) : Py Nat := do
  inputCheck net.scalars data
  let ps ← paramShapes data net.net.maxDim true false
  let xs ← net.init.forward ps
  let data ← setWidths data xs
  let out ← runWidths (fun data => paramShapes data net.net.maxDim true false) level data net.net.convs
  let ws ← finalWidths net.net.jump (some xs) out.2
  let _ ← getPoolingFn net.readout
  net.net.readoutPart ws

/-- `if len(params) > 1: params[1].up_index = None` (mp/molec_models.py:457-458, 470-471). -/
def dropRingShapes : List ParamShape → List ParamShape
  | v :: e :: rest => v :: { e with up := false } :: rest
  | ps => ps

/-- `EmbedSparseCINNoRings.__init__` (mp/molec_models.py:394-436): two dimensions, no jumping
knowledge. -/
def EmbedArgs.embedSparseCINNoRings (a : EmbedArgs) : Py (EmbedNetWidths SparseWidths) :=
  { a with maxDim := 1, jumpMode := none, readoutDims := some [0, 1] }.embedSparseCIN

/-- `EmbedSparseCINNoRings.forward` (mp/molec_models.py:445-500). -/
def EmbedNetWidths.forwardNoRings (net : EmbedNetWidths SparseWidths) (data : List LevelShape) :
    Py Nat := do
  checkScalars data
  let ps ← paramShapes data net.net.maxDim true false
  let xs ← net.init.forward (dropRingShapes ps)
  let data ← setWidths data xs
  let out ← runWidths (fun data => do
      let ps ← paramShapes data net.net.maxDim true false
      return dropRingShapes ps)
    SparseWidths.forward data net.net.convs
  let ws ← finalWidths net.net.jump (some xs) out.2
  let _ ← getPoolingFn net.readout
  net.net.readoutPart ws

/-! ## `CIN0` and `EdgeCIN0` -/

/-- A `CINCochainConv` (mp/layers.py:62-76): the sizes of the messages and the networks. -/
structure CINWidths where
  upSize : Nat
  downSize : Nat
  msgUp : List Mod
  msgDown : List Mod
  update : List Mod
  deriving DecidableEq

/-- The upper messages (mp/layers.py:94-99). -/
def CINWidths.up (l : CINWidths) (x : Nat) (p : ParamShape) : Py Nat :=
  if p.up then
    match p.upAttr with
    | some a => seqOut l.msgUp (x + a)
    | none => seqOut l.msgUp x
  else .ok l.upSize

/-- The lower messages (mp/layers.py:101-103): `torch.cat` rejects `None`. -/
def CINWidths.down (l : CINWidths) (x : Nat) (p : ParamShape) : Py Nat :=
  if p.down then
    match p.downAttr with
    | some a => seqOut l.msgDown (x + a)
    | none => .error .type
  else .ok l.downSize

/-- `CINCochainConv.forward` (mp/layers.py:78-86). -/
def CINWidths.forward (l : CINWidths) (p : ParamShape) : Py Nat := do
  let x ← needX p.x
  let up ← l.up x p
  let down ← l.down x p
  let up ← addInto up x
  let down ← addInto down x
  let w ← addWidths up down
  seqOut l.update w

/-- The networks of `CIN0` and `EdgeCIN0` (mp/models.py:34-39, 314-325): `Linear`, activation, …,
`BN`. -/
def cinUpdate (layerDim hidden : Nat) (act : Mod) : List Mod :=
  [.linear layerDim hidden, act, .linear hidden hidden, act, .norm hidden]

/-- The message networks of `CIN0` and `EdgeCIN0` (mp/models.py:40-47, 326-338). -/
def cinMsg (input layerDim : Nat) (act : Mod) : List Mod :=
  [.linear input layerDim, act, .norm layerDim]

/-- `CINConv(layer_dim, layer_dim, conv_up, conv_down, conv_update)` (mp/models.py:34-50,
mp/layers.py:107-116). -/
def cinConv (maxDim layerDim hidden : Nat) (act : Mod) : List CINWidths :=
  List.replicate (maxDim + 1) {
    upSize := layerDim
    downSize := layerDim
    msgUp := cinMsg (layerDim * 2) layerDim act
    msgDown := cinMsg (layerDim * 2) layerDim act
    update := cinUpdate layerDim hidden act }

/-- The arguments of `CIN0` and `EdgeCIN0` that concern sizes (mp/models.py:20-22, 294-298);
`maxDim` is for `CIN0`, the flags are for `EdgeCIN0`. -/
structure CINArgs where
  numInput : Nat
  numClasses : Nat
  numLayers : Nat
  hidden : Nat
  maxDim : Nat := 2
  jumpMode : Option String := none
  nonlinearity : String := "relu"
  readout : String := "sum"
  includeTop : Bool := true
  updateTop : Bool := true

/-- A network as the constructors of `CIN0` and `EdgeCIN0` leave it. -/
structure CINNetWidths where
  convs : List (List CINWidths)
  tops : List (List Mod)
  maxDim : Nat
  includeTop : Bool
  updateTop : Bool
  jump : Option Jump
  act : Mod
  lin1 : Mod
  lin2 : Mod

/-- `CIN0.__init__` (mp/models.py:20-56). -/
def CINArgs.cin0 (a : CINArgs) : Py CINNetWidths := do
  let _ ← getPoolingFn a.readout
  let act ← getNonlinearity a.nonlinearity
  let jump ← makeJump a.jumpMode
  return {
    convs := (List.range a.numLayers).map fun i =>
      cinConv a.maxDim (layerDim a.numInput a.hidden i) a.hidden act
    tops := []
    maxDim := a.maxDim
    includeTop := true
    updateTop := false
    jump := jump
    act := act
    lin1 := .linear (lin1Input a.jumpMode a.numLayers a.hidden) a.hidden
    lin2 := .linear a.hidden a.numClasses }

/-- The layer of `EdgeCIN0` (mp/models.py:314-341, mp/layers.py:132-143): the vertex level has no lower
network (`lambda *args: None`; vertices have no lower neighbours, the model gives it no module), the
upper messages of the edges have or have not the features of the two-cells. -/
def edgeCINConv (layerDim hidden : Nat) (act : Mod) (includeTop : Bool) : List CINWidths :=
  [{ upSize := layerDim
     downSize := layerDim
     msgUp := cinMsg (layerDim * 2) layerDim act
     msgDown := []
     update := cinUpdate layerDim hidden act },
   { upSize := layerDim
     downSize := layerDim
     msgUp := cinMsg (if includeTop then layerDim * 2 else layerDim) layerDim act
     msgDown := cinMsg (layerDim * 2) layerDim act
     update := cinUpdate layerDim hidden act }]

/-- `EdgeCIN0.__init__` (mp/models.py:294-356). -/
def CINArgs.edgeCIN0 (a : CINArgs) : Py CINNetWidths := do
  let _ ← getPoolingFn a.readout
  let act ← getNonlinearity a.nonlinearity
  let jump ← makeJump a.jumpMode
  return {
    convs := (List.range a.numLayers).map fun i =>
      edgeCINConv (layerDim a.numInput a.hidden i) a.hidden act a.includeTop
    tops := if a.includeTop && a.updateTop then
        (List.range (a.numLayers - 1)).map fun i =>
          cinUpdate (layerDim a.numInput a.hidden i) a.hidden act
      else []
    maxDim := 1
    includeTop := a.includeTop
    updateTop := a.includeTop && a.updateTop
    jump := jump
    act := act
    lin1 := .linear (lin1Input a.jumpMode a.numLayers a.hidden) a.hidden
    lin2 := .linear a.hidden a.numClasses }

/-- `self.update_top_nns[c](data.cochains[2].x)` (mp/models.py:396): without features the first
`Linear` fails with `TypeError`. -/
def topOut (tops : List (List Mod)) (c : Nat) (x : Option Nat) : Py Nat := do
  let top ← listGet tops c
  match x with
  | none => .error .type
  | some w => seqOut top w

/-- What is passed to `set_xs` after layer `c` (mp/models.py:393-399): the updated two-cells are added
unless this is the last layer or there are none. -/
def CINNetWidths.withTop (net : CINNetWidths) (data : List LevelShape) (c : Nat) (ws : List Nat) :
    Py (List Nat) :=
  if net.updateTop && decide (c < net.convs.length - 1) then
    match data[2]? with
    | some l => do
      let t ← topOut net.tops c l.x
      return ws ++ [t]
    | none => .ok ws
  else .ok ws

/-- The loop over the layers of `CIN0` and `EdgeCIN0` (mp/models.py:84-97, 387-405), from layer
`c` on. -/
def CINNetWidths.run (net : CINNetWidths) : Nat → List LevelShape → List (List CINWidths) →
    Py (List LevelShape × List (List Nat))
  | _, data, [] => .ok (data, [])
  | c, data, conv :: convs => do
    let ps ← paramShapes data net.maxDim net.includeTop true
    let ws ← convWidths CINWidths.forward conv ps
    let xs ← net.withTop data c ws
    let data ← setWidths data xs
    let rest ← net.run (c + 1) data convs
    return (rest.1, ws :: rest.2)

/-- `pooled_xs.sum(dim=0)` (mp/models.py:101, 411, 467, 654): all levels have the same columns. -/
def sumPooled (pooled : List Nat) : Py Nat := listGet pooled 0

/-- `CIN0.forward` and `EdgeCIN0.forward` (mp/models.py:84-106, 386-416). -/
def CINNetWidths.forward (net : CINNetWidths) (data : List LevelShape) : Py Nat := do
  let out ← net.run 0 data net.convs
  let ws ← finalWidths net.jump none out.2
  let pooled ← poolWidths net.maxDim ws
  let w ← sumPooled pooled
  seqOut [net.lin1, net.act, net.lin2] w

/-! ## `Dummy`, `MessagePassingAgnostic`, `EdgeOrient`, `EdgeMPNN` -/

/-- The messages of `DummyCochainMessagePassing` (mp/layers.py:22-31) or the zeros in their place;
adding `None` raises `TypeError`. -/
def dummyMsg (size x : Nat) (index : Bool) (attr : Option Nat) : Py Nat :=
  if index then
    match attr with
    | some a => addWidths x a
    | none => .error .type
  else .ok size

/-- `DummyCochainMessagePassing.forward` with message sizes `input_dim=1`, without boundary messages
(mp/layers.py:33-40, 44-51, mp/models.py:438): zeros have a single column and are broadcast. -/
def dummyForward (_ : Unit) (p : ParamShape) : Py Nat := do
  let x ← needX p.x
  let up ← dummyMsg 1 x p.up p.upAttr
  let down ← dummyMsg 1 x p.down p.downAttr
  let w ← addWidths x up
  let w ← addWidths w down
  addWidths w 1

/-- `Dummy` (mp/models.py:430-470): construction with `readout`, `forward` with `get_all_cochain_params`
up to dimension 2, whatever `max_dim` is. -/
def dummyWidths (numInput numClasses numLayers maxDim : Nat) (readout : String)
    (data : List LevelShape) : Py Nat := do
  let _ ← getPoolingFn readout
  let out ← runWidths (fun data => paramShapes data) dummyForward data
    (List.replicate numLayers (List.replicate (maxDim + 1) ()))
  let ws ← finalWidths none none out.2
  let pooled ← poolWidths maxDim ws
  let w ← sumPooled pooled
  (Mod.linear numInput numClasses).out w

/-- `self.act(self.lin0s[dim](params[dim].x))` (mp/models.py:648-651); a missing feature matrix is a
`TypeError` in `Linear`. -/
def lin0Out (lin0s : List Mod) (act : Mod) (pd : ParamShape × Nat) : Py Nat := do
  let lin0 ← listGet lin0s pd.2
  match pd.1.x with
  | none => .error .type
  | some w => seqOut [lin0, act] w

/-- `MessagePassingAgnostic` (mp/models.py:624-658): the nonlinearity is looked up by the constructor,
the readout by `pool_complex`; `lin1` acts on the pooled matrices. -/
def agnosticWidths (numInput numClasses hidden maxDim : Nat) (nonlinearity readout : String)
    (data : List LevelShape) : Py Nat := do
  let act ← getNonlinearity nonlinearity
  let ps ← paramShapes data maxDim true false
  let ws ← mapE (lin0Out (List.replicate (maxDim + 1) (.linear numInput hidden)) act) ps.zipIdx
  let _ ← getPoolingFn readout
  let pooled ← poolWidths maxDim ws
  let pooled ← mapE (seqOut [.linear hidden hidden, act]) pooled
  let w ← sumPooled pooled
  (Mod.linear hidden numClasses).out w

/-- The arguments of `EdgeOrient` and `EdgeMPNN` that concern sizes (mp/models.py:481-483, 554-556). -/
structure EdgeArgs where
  numInput : Nat
  numClasses : Nat
  numLayers : Nat
  hidden : Nat
  jumpMode : Option String := none
  nonlinearity : String := "id"
  readout : String := "sum"

/-- An `OrientedConv` (mp/layers.py:430-440, mp/models.py:494-504, 567-576): `updateUp` is `none` for
`lambda x: 0` of `EdgeMPNN`. -/
structure OrientWidths where
  upSize : Nat
  downSize : Nat
  updateUp : Option Mod
  updateDown : Mod
  update : Mod
  act : Mod

/-- A message of `OrientedConv` (mp/layers.py:462-470): the orientation is a single column. -/
def orientMsg (orient : Bool) (x : Nat) : Py Nat := if orient then addWidths x 1 else .ok x

/-- Adding `update_up_nn(out_up)` (mp/layers.py:451-454), which may be the number 0. -/
def addUp (updateUp : Option Mod) (x up : Nat) : Py Nat :=
  match updateUp with
  | none => .ok x
  | some m => do
    let up ← m.out up
    addWidths x up

/-- `OrientedConv.forward` on a cochain with both adjacencies (mp/layers.py:442-454; without an
adjacency the assertions on it fail). -/
def OrientWidths.forward (l : OrientWidths) (orient : Bool) (x : Nat) : Py Nat := do
  let up ← orientMsg orient x
  let down ← orientMsg orient x
  let down ← l.updateDown.out down
  let w ← l.update.out x
  let w ← addUp l.updateUp w up
  let w ← addWidths w down
  l.act.out w

/-- The loop over the layers of `EdgeOrient` and `EdgeMPNN` (mp/models.py:520-522, 592-594). -/
def runOrientWidths (orient : Bool) : Nat → List OrientWidths → Py Nat
  | w, [] => .ok w
  | w, l :: ls => do
    let w ← l.forward orient w
    runOrientWidths orient w ls

/-- `EdgeOrient` (`upMod` is `true`) and `EdgeMPNN` (`false`): construction and `forward`
(mp/models.py:481-543, 554-612). The activation is looked up once per layer; the jumping knowledge is
only constructed. Without layers `x` is not bound (`UnboundLocalError`, here `NameError`). -/
def edgeNetWidths (upMod orient : Bool) (a : EdgeArgs) (w : Nat) : Py Nat := do
  let _ ← getPoolingFn a.readout
  let convs ← mapE (fun (i : Nat) => do
    let act ← getNonlinearity a.nonlinearity
    return ({
      upSize := layerDim a.numInput a.hidden i
      downSize := layerDim a.numInput a.hidden i
      updateUp := if upMod then some (.linear (layerDim a.numInput a.hidden i) a.hidden) else none
      updateDown := .linear (layerDim a.numInput a.hidden i) a.hidden
      update := .linear (layerDim a.numInput a.hidden i) a.hidden
      act := act } : OrientWidths)) (List.range a.numLayers)
  let _ ← makeJump a.jumpMode
  if a.numLayers = 0 then .error .name
  else do
    let w ← runOrientWidths orient w convs
    seqOut [.linear a.hidden a.hidden, .pointwise, .linear a.hidden a.numClasses] w

/-! ## Graph networks -/

/-- `GINConv` (external contract): `nn((1 + eps) x_i + Σ_j x_j)` has the columns of `nn`. -/
def ginMod (layerDim hidden : Nat) (norm : Nat → Mod) (act : Mod) : List Mod :=
  [.linear layerDim hidden, norm hidden, act, .linear hidden hidden, norm hidden, act]

/-- The outputs of all the layers. -/
def runGINWidths : Nat → List (List Mod) → Py (List Nat)
  | _, [] => .ok []
  | w, l :: ls => do
    let w ← seqOut l w
    let rest ← runGINWidths w ls
    return w :: rest

/-- `GIN0`, `GIN` (`mode = none`) and `GIN0WithJK`, `GINWithJK` (mp/graph_models.py:33-82, 88-145,
151-200, 206-263): construction and `forward` on graphs with `w` columns. There is always a first layer;
`range(num_layers - 1)` gives the others. -/
def ginWidths (numFeatures numLayers hidden numClasses : Nat) (mode : Option String)
    (readout nonlinearity : String) (w : Nat) : Py Nat := do
  let _ ← getPoolingFn readout
  let act ← getNonlinearity nonlinearity
  let jump ← makeJump mode
  let first ← seqOut (ginMod numFeatures hidden .norm act) w
  let rest ← runGINWidths first (List.replicate (numLayers - 1) (ginMod hidden hidden .norm act))
  let w ← match jump with
    | none => Except.ok (rest.getLastD first)
    | some j => j.out (first :: rest)
  seqOut [.linear (lin1Input mode numLayers hidden) hidden, act, .linear hidden numClasses] w

/-- `RingGIN` (mp/ring_exp_models.py:77-127): construction and `forward`. -/
def ringGINWidths (numFeatures numLayers hidden numClasses : Nat) (nonlinearity graphNorm : String)
    (w : Nat) : Py Nat := do
  let act ← getNonlinearity nonlinearity
  let norm ← getGraphNorm graphNorm
  let w ← (Mod.linear numFeatures numFeatures).out w
  let first ← seqOut (ginMod numFeatures hidden norm act) w
  let rest ← runGINWidths first (List.replicate (numLayers - 1) (ginMod hidden hidden norm act))
  (Mod.linear hidden numClasses).out (rest.getLastD first)

/-- `data.nodes.x = self.init_layer(data.nodes.x)` (mp/ring_exp_models.py:51); without features `Linear`
raises `TypeError`. -/
def initNodes (init : Mod) : List LevelShape → Py (List LevelShape)
  | [] => .error .key
  | v :: rest =>
    match v.x with
    | none => .error .type
    | some w => do
      let w ← init.out w
      return { v with x := some w } :: rest

/-- `RingSparseCIN` (mp/ring_exp_models.py:18-70): construction and `forward`. Without layers
`xs[0]` fails. -/
def ringSparseWidths (numInput numClasses numLayers hidden maxDim : Nat)
    (nonlinearity graphNorm : String) (useCoboundaries : Bool) (data : List LevelShape) : Py Nat := do
  let act ← getNonlinearity nonlinearity
  let norm ← getGraphNorm graphNorm
  let data ← initNodes (.linear numInput numInput) data
  let out ← runWidths (fun data => paramShapes data maxDim true false) SparseWidths.forward data
    ((List.range numLayers).map fun i =>
      sparseCINConv maxDim (layerDim numInput hidden i) hidden norm act useCoboundaries)
  let ws ← finalWidths none none out.2
  let w ← listGet ws 0
  (Mod.linear hidden numClasses).out w

/-- `GINEConv.forward` (external contract): the edge features must have the columns of the node
features (`assert x[0].size(-1) == edge_attr.size(-1)`). -/
def gineOut (nn : List Mod) (attr w : Nat) : Py Nat := do
  pyAssert (w == attr)
  seqOut nn w

/-- The loop over the layers of `EmbedGIN` (mp/molec_models.py:588-589): the edge features stay the
same. -/
def runGINEWidths (attr : Nat) : Nat → List (List Mod) → Py Nat
  | w, [] => .ok w
  | w, l :: ls => do
    let w ← gineOut l attr w
    runGINEWidths attr w ls

/-- The edge features of `EmbedGIN` (mp/molec_models.py:578-586): those of the upper attributes, or a
row of zeros when there are no edges; `GINEConv` cannot do without (`AttributeError`). -/
def gineAttr (p : ParamShape) (x : Nat) : Py Nat :=
  if p.up then
    match p.upAttr with
    | some a => .ok a
    | none => .error .attribute
  else .ok x

/-- `EmbedGIN` (mp/molec_models.py:514-603): construction and `forward`. -/
def embedGINWidths (a : EmbedArgs) (data : List LevelShape) : Py Nat := do
  let _ ← getPoolingFn a.readout
  let act ← getNonlinearity a.nonlinearity
  checkScalars data
  let ps ← paramShapes data 1 true false
  let xs ← EmbedWidths.forward
    { v := .embedding a.embed, e := if a.embedEdge then some (.embedding a.embed) else none } ps
  let data ← setWidths data xs
  let ps ← paramShapes data 0 true false
  let p ← listGet ps 0
  let x ← needX p.x
  let attr ← gineAttr p x
  let w ← runGINEWidths attr x ((List.range a.numLayers).map fun i =>
    ginMod (layerDim a.embed a.hidden i) a.hidden .norm act)
  seqOut [.linear a.hidden a.hidden, act, .linear a.hidden a.numClasses] w

end Verif
