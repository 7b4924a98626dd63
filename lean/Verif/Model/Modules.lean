import Verif.Model.Widths

/-!
# Modules, their parameters and `reset_parameters` (mp/layers.py, mp/models.py, mp/molec_models.py,
mp/graph_models.py, mp/ring_exp_models.py, exp/run_exp.py:330-341)

The constructors are modelled with the parameters they create. A parameter has an identity, so that a
module that is used in two places is counted once, as `named_parameters` does. The values of parameters
are left out, and buffers (running statistics, `eps` when it is not trained) are no parameters.
-/

namespace Verif

/-- A `torch.nn.Parameter`: its identity and its number of elements. -/
structure NNParam where
  id : Nat
  numel : Nat
  deriving DecidableEq

/-- A statement in the body of a `reset_parameters`. -/
inductive ResetAct
  /-- `self.attr.reset_parameters()` -/
  | call (attr : String)
  /-- `for child in self.attr: child.reset_parameters()` -/
  | each (attr : String)
  /-- `reset(self.attr)`, the helper of `torch_geometric.nn.inits` -/
  | soft (attr : String)
  /-- `self.name.data.fill_(…)` and the initialisations in torch -/
  | fill (name : String)
  deriving DecidableEq

/-- A `torch.nn.Module`: the body of `reset_parameters` of its class (`none` if the class has no such
method), its own parameters and its registered children, by attribute.
Simplified: the children of `Sequential` and `ModuleList`, which torch numbers, have the name `""`.
Attributes that are plain functions or `None` are not registered and left out. -/
inductive NNModule
  | mk (reset : Option (List ResetAct)) (own : List (String × NNParam))
      (children : List (String × NNModule))

mutual
/-- The parameters of a module and of its descendants in the order of `named_modules`, with
repetitions. -/
def NNModule.params : NNModule → List NNParam
  | .mk _ own children => own.map Prod.snd ++ childParams children

/-- The parameters of the children. -/
def childParams : List (String × NNModule) → List NNParam
  | [] => []
  | (_, m) :: ms => m.params ++ childParams ms
end

/-- The loop of `named_parameters` (external contract): a parameter that was seen before is skipped. -/
def skipSeen (seen : List NNParam) : List NNParam → List NNParam
  | [] => []
  | p :: ps => if p ∈ seen then skipSeen seen ps else p :: skipSeen (p :: seen) ps

/-- `model.named_parameters()` without the names. -/
def NNModule.namedParameters (m : NNModule) : List NNParam := skipSeen [] m.params

/-- `total_params` (exp/run_exp.py:331-337). All parameters require gradients, so `trainable_params` is
the same number. -/
def NNModule.totalParams (m : NNModule) : Nat :=
  m.namedParameters.foldl (fun total p => total + p.numel) 0

/-! ## `reset_parameters` -/

/-- The versions of `torch_geometric.nn.inits.reset` (external contract). In version 1.6.3, which
pyG_install.sh:7 asks for, it calls the children that have the method, or the module itself if it has no
children; in later versions it calls the module if it has the method, and goes on with its children
otherwise. -/
inductive PygReset
  | children | deep
  deriving DecidableEq

/-- What the callers of a module see: whether it has `reset_parameters`, the parameters that the method
re-initialises, the same for its children, and what the later version of `reset` does. -/
structure ResetView where
  has : Bool
  self : Py (List NNParam)
  kids : List (Bool × Py (List NNParam))
  deep : Py (List NNParam)

/-- Several calls in a row. -/
def callAll : List (Py (List NNParam)) → Py (List NNParam)
  | [] => .ok []
  | c :: cs => do
    let ps ← c
    let rest ← callAll cs
    return ps ++ rest

/-- `reset(module)` (external contract); functions and `None` are ignored. -/
def pygReset (v : PygReset) : Option ResetView → Py (List NNParam)
  | none => .ok []
  | some s =>
    match v with
    | .children =>
      if s.kids.isEmpty then (if s.has then s.self else .ok [])
      else callAll ((s.kids.filter Prod.fst).map Prod.snd)
    | .deep => s.deep

/-- `self.attr.reset_parameters()`; `None` has no such attribute. -/
def callChild : Option ResetView → Py (List NNParam)
  | none => .error .attribute
  | some s => s.self

/-- `for child in self.attr: child.reset_parameters()`; a missing attribute is an `AttributeError`. -/
def callKids : Option ResetView → Py (List NNParam)
  | none => .error .attribute
  | some s => callAll (s.kids.map Prod.snd)

/-- A statement of `reset_parameters`: the parameters that it re-initialises. -/
def runAct (v : PygReset) (own : List (String × NNParam)) (kids : List (String × ResetView)) :
    ResetAct → Py (List NNParam)
  | .call attr => callChild (kids.lookup attr)
  | .each attr => callKids (kids.lookup attr)
  | .soft attr => pygReset v (kids.lookup attr)
  | .fill name => .ok ((own.filter fun p => p.1 == name).map Prod.snd)

/-- The body of `reset_parameters`; torch raises `AttributeError` for classes without the method. -/
def runBody (v : PygReset) (own : List (String × NNParam)) (kids : List (String × ResetView)) :
    Option (List ResetAct) → Py (List NNParam)
  | none => .error .attribute
  | some acts => callAll (acts.map (runAct v own kids))

/-- The later version of `reset`. -/
def deepReset (v : PygReset) (own : List (String × NNParam)) (kids : List (String × ResetView)) :
    Option (List ResetAct) → Py (List NNParam)
  | none => callAll (kids.map fun k => k.2.deep)
  | some acts => runBody v own kids (some acts)

mutual
/-- What the callers of a module see. -/
def NNModule.view (v : PygReset) : NNModule → ResetView
  | .mk reset own children =>
    { has := reset.isSome
      self := runBody v own (childViews v children) reset
      kids := (childViews v children).map fun k => (k.2.has, k.2.self)
      deep := deepReset v own (childViews v children) reset }

/-- What the callers of the children see. -/
def childViews (v : PygReset) : List (String × NNModule) → List (String × ResetView)
  | [] => []
  | (name, m) :: ms => (name, m.view v) :: childViews v ms
end

/-- `module.reset_parameters()`: the parameters that are re-initialised, or the exception. -/
def NNModule.resetParameters (v : PygReset) (m : NNModule) : Py (List NNParam) := (m.view v).self

/-! ## Modules of torch, PyG and OGB (external contracts)

Constructors are actions on the next free identity. -/

/-- `torch.nn.Parameter(…)`. -/
def newParam (numel : Nat) : StateM Nat NNParam := fun n => ({ id := n, numel := numel }, n + 1)

/-- Several parameters. -/
def newParams : List (String × Nat) → StateM Nat (List (String × NNParam))
  | [] => pure []
  | s :: ss => do
    let p ← newParam s.2
    let ps ← newParams ss
    return (s.1, p) :: ps

/-- A module of torch with parameters: `reset_parameters` initialises all of them. -/
def newLeaf (sizes : List (String × Nat)) : StateM Nat NNModule := do
  let ps ← newParams sizes
  return .mk (some (sizes.map fun s => .fill s.1)) ps []

/-- `torch.nn.Linear`. -/
def newLinear (i o : Nat) (bias : Bool := true) : StateM Nat NNModule :=
  newLeaf (if bias then [("weight", o * i), ("bias", o)] else [("weight", o * i)])

/-- `BatchNorm1d` and `LayerNorm`. -/
def newNorm (n : Nat) : StateM Nat NNModule := newLeaf [("weight", n), ("bias", n)]

/-- `torch.nn.Embedding`. -/
def newEmbedding (num dim : Nat) : StateM Nat NNModule := newLeaf [("weight", num * dim)]

/-- Activations, `Identity`, `Catter` (mp/layers.py:263-268) and `InitReduceConv` (mp/layers.py:473-482):
no parameters and no `reset_parameters`. -/
def plainModule : NNModule := .mk none [] []

/-- A module given by its sizes (see `Mod`). -/
def newMod : Mod → StateM Nat NNModule
  | .linear i o => newLinear i o
  | .norm n => newNorm n
  | .pointwise => pure plainModule

/-- Several modules. -/
def newMany : List (StateM Nat NNModule) → StateM Nat (List (String × NNModule))
  | [] => pure []
  | b :: bs => do
    let m ← b
    let ms ← newMany bs
    return ("", m) :: ms

/-- `torch.nn.Sequential` and `torch.nn.ModuleList`: neither has `reset_parameters`. -/
def newList (bs : List (StateM Nat NNModule)) : StateM Nat NNModule := do
  let ms ← newMany bs
  return .mk none [] ms

/-- `Sequential(…)`. -/
def newSeq (ms : List Mod) : StateM Nat NNModule := newList (ms.map newMod)

/-- `JumpingKnowledge` in the modes `'cat'` and `'max'`: a `reset_parameters` with nothing to do. -/
def jumpModule : NNModule := .mk (some []) [] []

/-- `GINConv` and `GINEConv` of PyG. -/
def newGINConv (nn : List Mod) (trainEps : Bool) : StateM Nat NNModule := do
  let nn ← newSeq nn
  let eps ← newParams (if trainEps then [("eps", 1)] else [])
  return .mk (some [.soft "nn", .fill "eps"]) eps [("nn", nn)]

/-- `AtomEncoder` and `BondEncoder` of OGB: an embedding per feature (`dims` are the sizes of the
vocabularies), and no `reset_parameters`. -/
def newEncoder (dims : List Nat) (dim : Nat) : StateM Nat NNModule := do
  let tables ← newList (dims.map fun num => newEmbedding num dim)
  return .mk none [] [("embedding_list", tables)]

/-- An attribute that may be `None` or a function. -/
def optChild (name : String) : Option NNModule → List (String × NNModule)
  | none => []
  | some m => [(name, m)]

/-- A module that may be missing. -/
def newOpt : Option (StateM Nat NNModule) → StateM Nat (Option NNModule)
  | none => pure none
  | some b => do
    let m ← b
    return some m

/-! ## Convolutions (mp/layers.py) -/

/-- `CINCochainConv.reset_parameters` (mp/layers.py:88-92). -/
def cinReset : List ResetAct :=
  [.soft "msg_up_nn", .soft "msg_down_nn", .soft "update_nn", .fill "eps"]

/-- `CINCochainConv.__init__` with `train_eps=False` (mp/layers.py:64-76). The lower network may be a
function. -/
def cinLevel (msgUp : NNModule) (msgDown : Option NNModule) (update : NNModule) : NNModule :=
  .mk (some cinReset) []
    ([("msg_up_nn", msgUp)] ++ optChild "msg_down_nn" msgDown ++ [("update_nn", update)])

/-- The networks of `CIN0` and `CINConv.__init__` (mp/models.py:34-50, mp/layers.py:107-116): the levels
share the networks. `CINConv` has no `reset_parameters`. -/
def newCINConv (maxDim layerDim hidden : Nat) (act : Mod) : StateM Nat NNModule := do
  let update ← newSeq (cinUpdate layerDim hidden act)
  let up ← newSeq (cinMsg (layerDim * 2) layerDim act)
  let down ← newSeq (cinMsg (layerDim * 2) layerDim act)
  return .mk none [] [("mp_levels",
    .mk none [] (List.replicate (maxDim + 1) ("", cinLevel up (some down) update)))]

/-- The networks of `EdgeCIN0` and `EdgeCINConv.__init__` (mp/models.py:314-341, mp/layers.py:132-143).
`EdgeCINConv` has no `reset_parameters`. -/
def newEdgeCINConv (layerDim hidden : Nat) (act : Mod) (includeTop : Bool) : StateM Nat NNModule := do
  let vUpdate ← newSeq (cinUpdate layerDim hidden act)
  let eUpdate ← newSeq (cinUpdate layerDim hidden act)
  let vUp ← newSeq (cinMsg (layerDim * 2) layerDim act)
  let eDown ← newSeq (cinMsg (layerDim * 2) layerDim act)
  let eUp ← newSeq (cinMsg (if includeTop then layerDim * 2 else layerDim) layerDim act)
  return .mk none [] [("mp_levels",
    .mk none [] [("", cinLevel vUp none vUpdate), ("", cinLevel eUp (some eDown) eUpdate)])]

/-- `SparseCINCochainConv.reset_parameters` (mp/layers.py:201-208). -/
def sparseReset : List ResetAct :=
  [.soft "msg_up_nn", .soft "msg_boundaries_nn", .soft "update_up_nn", .soft "update_boundaries_nn",
    .soft "combine_nn", .fill "eps1", .fill "eps2"]

/-- The message networks of `SparseCINConv` and `CINppConv` (mp/layers.py:287-295, 362-380): a
`Sequential` that starts with the `Catter`, or a function. -/
def newMsgNet (layerDim : Nat) (act : Mod) (useCoboundaries : Bool) : StateM Nat (Option NNModule) :=
  newOpt ((msgUpNet layerDim act useCoboundaries).map fun ms => newSeq (.pointwise :: ms))

/-- A level of `SparseCINConv` (mp/layers.py:285-331, 168-182); the boundary messages are a function. -/
def newSparseLevel (layerDim hidden : Nat) (norm : Nat → Mod) (act : Mod)
    (useCoboundaries trainEps : Bool) : StateM Nat NNModule := do
  let msgUp ← newMsgNet layerDim act useCoboundaries
  let updateUp ← newSeq (updateNet layerDim hidden norm act)
  let updateBoundary ← newSeq (updateNet layerDim hidden norm act)
  let combine ← newSeq [.linear (hidden * 2) hidden, norm hidden, act]
  let eps ← newParams (if trainEps then [("eps1", 1), ("eps2", 1)] else [])
  return .mk (some sparseReset) eps (optChild "msg_up_nn" msgUp ++
    [("update_up_nn", updateUp), ("update_boundaries_nn", updateBoundary), ("combine_nn", combine)])

/-- A level of `CINppConv` (mp/layers.py:360-427, 219-237): `reset_parameters` is inherited. -/
def newPPLevel (layerDim hidden : Nat) (norm : Nat → Mod) (act : Mod)
    (useCoboundaries trainEps : Bool) : StateM Nat NNModule := do
  let msgUp ← newMsgNet layerDim act useCoboundaries
  let msgDown ← newMsgNet layerDim act useCoboundaries
  let updateUp ← newSeq (updateNet layerDim hidden norm act)
  let updateDown ← newSeq (updateNet layerDim hidden norm act)
  let updateBoundary ← newSeq (updateNet layerDim hidden norm act)
  let combine ← newSeq [.linear (hidden * 3) hidden, norm hidden, act]
  let eps ← newParams (if trainEps then [("eps1", 1), ("eps2", 1), ("eps3", 1)] else [])
  return .mk (some sparseReset) eps (optChild "msg_up_nn" msgUp ++
    [("update_up_nn", updateUp), ("update_boundaries_nn", updateBoundary), ("combine_nn", combine)] ++
    optChild "msg_down_nn" msgDown ++ [("update_down_nn", updateDown)])

/-- `SparseCINConv` and `CINppConv` (mp/layers.py:283-331, 357-427) with their levels; neither has
`reset_parameters`. -/
def newLevels (maxDim : Nat) (level : StateM Nat NNModule) : StateM Nat NNModule := do
  let levels ← newList (List.replicate (maxDim + 1) level)
  return .mk none [] [("mp_levels", levels)]

/-- `OrientedConv.reset_parameters` (mp/layers.py:456-459). -/
def orientedReset : List ResetAct := [.soft "update_up_nn", .soft "update_down_nn", .soft "update_nn"]

/-- The layer of `EdgeOrient` (`upMod` is `true`) and of `EdgeMPNN`, where the upper update is a function
(mp/models.py:493-504, 567-576, mp/layers.py:431-440). -/
def newOrientedConv (upMod : Bool) (layerDim hidden : Nat) : StateM Nat NNModule := do
  let up ← newOpt (if upMod then some (newLinear layerDim hidden false) else none)
  let down ← newLinear layerDim hidden false
  let update ← newLinear layerDim hidden false
  return .mk (some orientedReset) []
    (optChild "update_up_nn" up ++ [("update_down_nn", down), ("update_nn", update)])

/-! ## Networks -/

/-- `if self.jump_mode is not None: self.jump.reset_parameters()` (mp/models.py:61-62, 166-167, 361-362,
512-513, 584-585, mp/molec_models.py:77-78, 268-269). -/
def jumpAct (jumpMode : Option String) : List ResetAct :=
  match jumpMode with
  | none => []
  | some _ => [.call "jump"]

/-- The attribute `jump` (mp/models.py:51, 151, 351, 505, 577). -/
def jumpChild (jumpMode : Option String) : List (String × NNModule) :=
  match jumpMode with
  | none => []
  | some _ => [("jump", jumpModule)]

/-- `CIN0.__init__` and `CIN0.reset_parameters` (mp/models.py:20-64). -/
def CINArgs.newCIN0 (a : CINArgs) : Py (StateM Nat NNModule) := do
  let _ ← getPoolingFn a.readout
  let act ← getNonlinearity a.nonlinearity
  let _ ← makeJump a.jumpMode
  return do
    let convs ← newList ((List.range a.numLayers).map fun i =>
      newCINConv a.maxDim (layerDim a.numInput a.hidden i) a.hidden act)
    let lin1 ← newLinear (lin1Input a.jumpMode a.numLayers a.hidden) a.hidden
    let lin2 ← newLinear a.hidden a.numClasses
    return .mk (some ([.each "convs"] ++ jumpAct a.jumpMode ++ [.call "lin1", .call "lin2"])) []
      ([("convs", convs)] ++ jumpChild a.jumpMode ++ [("lin1", lin1), ("lin2", lin2)])

/-- `EdgeCIN0.__init__` and `EdgeCIN0.reset_parameters` (mp/models.py:294-366).
Simplified: the networks of the two-cells are created after all the layers. -/
def CINArgs.newEdgeCIN0 (a : CINArgs) : Py (StateM Nat NNModule) := do
  let _ ← getPoolingFn a.readout
  let act ← getNonlinearity a.nonlinearity
  let _ ← makeJump a.jumpMode
  return do
    let convs ← newList ((List.range a.numLayers).map fun i =>
      newEdgeCINConv (layerDim a.numInput a.hidden i) a.hidden act a.includeTop)
    let tops ← newList (if a.includeTop && a.updateTop then
        (List.range (a.numLayers - 1)).map fun i =>
          newSeq (cinUpdate (layerDim a.numInput a.hidden i) a.hidden act)
      else [])
    let lin1 ← newLinear (lin1Input a.jumpMode a.numLayers a.hidden) a.hidden
    let lin2 ← newLinear a.hidden a.numClasses
    return .mk (some ([.each "convs"] ++ jumpAct a.jumpMode ++
        [.call "lin1", .call "lin2", .each "update_top_nns"])) []
      ([("convs", convs), ("update_top_nns", tops)] ++ jumpChild a.jumpMode ++
        [("lin1", lin1), ("lin2", lin2)])

/-- `lin1s` (mp/models.py:152-160, mp/molec_models.py:63-71, 254-262): without bias behind the jumping
knowledge that concatenates. -/
def newLin1s (a : SparseArgs) : StateM Nat NNModule :=
  newList (List.replicate (a.maxDim + 1)
    (newLinear (lin1Input a.jumpMode a.numLayers a.hidden) (a.multiplier * a.hidden)
      (decide (a.jumpMode ≠ some "cat"))))

/-- The layers of `SparseCIN` (mp/models.py:142-150, mp/molec_models.py:53-61, 244-252, 424-432,
mp/ring_exp_models.py:30-38). -/
def newSparseConvs (numInput numLayers hidden maxDim : Nat) (norm : Nat → Mod) (act : Mod)
    (useCoboundaries trainEps : Bool) : StateM Nat NNModule :=
  newList ((List.range numLayers).map fun i => newLevels maxDim
    (newSparseLevel (layerDim numInput hidden i) hidden norm act useCoboundaries trainEps))

/-- The layers of `CINpp` (mp/models.py:274-284, mp/molec_models.py:185-199, 370-384). -/
def newPPConvs (numInput numLayers hidden maxDim : Nat) (norm : Nat → Mod) (act : Mod)
    (useCoboundaries trainEps : Bool) : StateM Nat NNModule :=
  newList ((List.range numLayers).map fun i => newLevels maxDim
    (newPPLevel (layerDim numInput hidden i) hidden norm act useCoboundaries trainEps))

/-- `self.attr = …` on a registered child: it is replaced. -/
def setChild (attr : String) (m : NNModule) : NNModule → NNModule
  | .mk reset own children =>
    .mk reset own (children.map fun c => if c.1 = attr then (attr, m) else c)

/-- The end of the constructors of `CINpp`, `EmbedCINpp` and `OGBEmbedCINpp` (mp/models.py:274-284,
mp/molec_models.py:185-199, 370-384): the constructor of the superclass ran before, and its layers are
replaced. -/
def replaceConvs (super convs : StateM Nat NNModule) : StateM Nat NNModule := do
  let net ← super
  let convs ← convs
  return setChild "convs" convs net

/-- `SparseCIN.__init__` and `SparseCIN.reset_parameters` (mp/models.py:120-169). -/
def SparseArgs.newSparseCIN (a : SparseArgs) (trainEps : Bool) : Py (StateM Nat NNModule) := do
  let _ ← getPoolingFn a.readout
  let norm ← getGraphNorm a.graphNorm
  let act ← getNonlinearity a.nonlinearity
  let _ ← makeJump a.jumpMode
  return do
    let convs ← newSparseConvs a.numInput a.numLayers a.hidden a.maxDim norm act a.useCoboundaries
      trainEps
    let lin1s ← newLin1s a
    let lin2 ← newLinear (a.multiplier * a.hidden) a.numClasses
    return .mk (some ([.each "convs"] ++ jumpAct a.jumpMode ++ [.call "lin1s", .call "lin2"])) []
      ([("convs", convs)] ++ jumpChild a.jumpMode ++ [("lin1s", lin1s), ("lin2", lin2)])

/-- `CINpp.__init__` (mp/models.py:263-284); `reset_parameters` is inherited. -/
def SparseArgs.newCINpp (a : SparseArgs) (trainEps : Bool) : Py (StateM Nat NNModule) := do
  let super ← a.newSparseCIN trainEps
  let norm ← getGraphNorm a.graphNorm
  let act ← getNonlinearity a.nonlinearity
  return replaceConvs super
    (newPPConvs a.numInput a.numLayers a.hidden a.maxDim norm act a.useCoboundaries trainEps)

/-- `AbstractEmbedVEWithReduce.__init__` and its `reset_parameters` (mp/layers.py:492-508, 545-547): the
embeddings are those of the network. -/
def initConv (v : NNModule) (e : Option NNModule) : NNModule :=
  .mk (some [.soft "v_embed_layer", .soft "e_embed_layer"]) []
    ([("v_embed_layer", v)] ++ optChild "e_embed_layer" e ++ [("init_reduce", plainModule)])

/-- The children of the embedding networks before the layers (mp/molec_models.py:36-42, 226-232,
409-415, 526-532). -/
def embedChildren (v : NNModule) (e : Option NNModule) : List (String × NNModule) :=
  [("v_embed_init", v)] ++ optChild "e_embed_init" e ++
    [("reduce_init", plainModule), ("init_conv", initConv v e)]

/-- `EmbedSparseCIN` and `OGBEmbedSparseCIN` (mp/molec_models.py:20-81, 210-272), given the constructors
of the embeddings of vertices and edges. -/
def EmbedArgs.newEmbedNet (a : EmbedArgs) (newV newE : StateM Nat NNModule) (trainEps : Bool) :
    Py (StateM Nat NNModule) := do
  let norm ← getGraphNorm a.graphNorm
  let act ← getNonlinearity a.nonlinearity
  let _ ← makeJump a.jumpMode
  return do
    let v ← newV
    let e ← newOpt (if a.embedEdge then some newE else none)
    let convs ← newSparseConvs a.embed a.numLayers a.hidden a.maxDim norm act a.useCoboundaries
      trainEps
    let lin1s ← newLin1s a.toSparseArgs
    let lin2 ← newLinear (a.multiplier * a.hidden) a.numClasses
    return .mk (some ([.each "convs"] ++ jumpAct a.jumpMode ++
        [.call "init_conv", .call "lin1s", .call "lin2"])) []
      (embedChildren v e ++ [("convs", convs)] ++ jumpChild a.jumpMode ++
        [("lin1s", lin1s), ("lin2", lin2)])

/-- `EmbedSparseCIN` (mp/molec_models.py:20-81). -/
def EmbedArgs.newEmbedSparseCIN (a : EmbedArgs) (atomTypes bondTypes : Nat) (trainEps : Bool) :
    Py (StateM Nat NNModule) :=
  a.newEmbedNet (newEmbedding atomTypes a.embed) (newEmbedding bondTypes a.embed) trainEps

/-- `OGBEmbedSparseCIN` (mp/molec_models.py:210-272); `atomDims` and `bondDims` are the vocabularies of
OGB. -/
def EmbedArgs.newOGBEmbedSparseCIN (a : EmbedArgs) (atomDims bondDims : List Nat) (trainEps : Bool) :
    Py (StateM Nat NNModule) :=
  a.newEmbedNet (newEncoder atomDims a.embed) (newEncoder bondDims a.embed) trainEps

/-- The constructors of `EmbedCINpp` and `OGBEmbedCINpp` after those of the superclass
(mp/molec_models.py:178-199, 365-384). -/
def EmbedArgs.newEmbedPP (a : EmbedArgs) (super : Py (StateM Nat NNModule)) (trainEps : Bool) :
    Py (StateM Nat NNModule) := do
  let super ← super
  let norm ← getGraphNorm a.graphNorm
  let act ← getNonlinearity a.nonlinearity
  return replaceConvs super
    (newPPConvs a.embed a.numLayers a.hidden a.maxDim norm act a.useCoboundaries trainEps)

/-- `EmbedCINpp` (mp/molec_models.py:172-199). -/
def EmbedArgs.newEmbedCINpp (a : EmbedArgs) (atomTypes bondTypes : Nat) (trainEps : Bool) :
    Py (StateM Nat NNModule) :=
  a.newEmbedPP (a.newEmbedSparseCIN atomTypes bondTypes trainEps) trainEps

/-- `OGBEmbedCINpp` (mp/molec_models.py:359-384). -/
def EmbedArgs.newOGBEmbedCINpp (a : EmbedArgs) (atomDims bondDims : List Nat) (trainEps : Bool) :
    Py (StateM Nat NNModule) :=
  a.newEmbedPP (a.newOGBEmbedSparseCIN atomDims bondDims trainEps) trainEps

/-- `EmbedSparseCINNoRings` (mp/molec_models.py:394-443): two dimensions, no jumping knowledge. -/
def EmbedArgs.newEmbedSparseCINNoRings (a : EmbedArgs) (atomTypes bondTypes : Nat) (trainEps : Bool) :
    Py (StateM Nat NNModule) :=
  { a with maxDim := 1, jumpMode := none }.newEmbedSparseCIN atomTypes bondTypes trainEps

/-- `EmbedGIN` (mp/molec_models.py:514-559). -/
def EmbedArgs.newEmbedGIN (a : EmbedArgs) (atomTypes bondTypes : Nat) (trainEps : Bool) :
    Py (StateM Nat NNModule) := do
  let _ ← getPoolingFn a.readout
  let act ← getNonlinearity a.nonlinearity
  return do
    let v ← newEmbedding atomTypes a.embed
    let e ← newOpt (if a.embedEdge then some (newEmbedding bondTypes a.embed) else none)
    let convs ← newList ((List.range a.numLayers).map fun i =>
      newGINConv (ginMod (layerDim a.embed a.hidden i) a.hidden .norm act) trainEps)
    let lin1 ← newLinear a.hidden a.hidden
    let lin2 ← newLinear a.hidden a.numClasses
    return .mk (some [.each "convs", .call "init_conv", .call "lin1", .call "lin2"]) []
      (embedChildren v e ++ [("convs", convs), ("lin1", lin1), ("lin2", lin2)])

/-- `RingSparseCIN` (mp/ring_exp_models.py:18-45). -/
def newRingSparseCIN (numInput numClasses numLayers hidden maxDim : Nat)
    (nonlinearity graphNorm : String) (useCoboundaries trainEps : Bool) : Py (StateM Nat NNModule) := do
  let act ← getNonlinearity nonlinearity
  let norm ← getGraphNorm graphNorm
  return do
    let init ← newLinear numInput numInput
    let convs ← newSparseConvs numInput numLayers hidden maxDim norm act useCoboundaries trainEps
    let lin1 ← newLinear hidden numClasses
    return .mk (some [.call "init_layer", .each "convs", .call "lin1"]) []
      [("init_layer", init), ("convs", convs), ("lin1", lin1)]

/-- `RingGIN` (mp/ring_exp_models.py:77-115). -/
def newRingGIN (numFeatures numLayers hidden numClasses : Nat) (nonlinearity graphNorm : String) :
    Py (StateM Nat NNModule) := do
  let act ← getNonlinearity nonlinearity
  let norm ← getGraphNorm graphNorm
  return do
    let init ← newLinear numFeatures numFeatures
    let conv1 ← newGINConv (ginMod numFeatures hidden norm act) false
    let convs ← newList (List.replicate (numLayers - 1)
      (newGINConv (ginMod hidden hidden norm act) false))
    let lin1 ← newLinear hidden numClasses
    return .mk (some [.call "init_linear", .call "conv1", .each "convs", .call "lin1"]) []
      [("init_linear", init), ("conv1", conv1), ("convs", convs), ("lin1", lin1)]

/-- `GIN0`, `GIN` (`mode = none`, `trainEps` distinguishes them) and `GIN0WithJK`, `GINWithJK`
(mp/graph_models.py:33-70, 88-130, 151-188, 206-248). -/
def newGIN (numFeatures numLayers hidden numClasses : Nat) (mode : Option String)
    (readout nonlinearity : String) (trainEps : Bool) : Py (StateM Nat NNModule) := do
  let _ ← getPoolingFn readout
  let act ← getNonlinearity nonlinearity
  let _ ← makeJump mode
  return do
    let conv1 ← newGINConv (ginMod numFeatures hidden .norm act) trainEps
    let convs ← newList (List.replicate (numLayers - 1)
      (newGINConv (ginMod hidden hidden .norm act) trainEps))
    let lin1 ← newLinear (lin1Input mode numLayers hidden) hidden
    let lin2 ← newLinear hidden numClasses
    return .mk (some ([.call "conv1", .each "convs"] ++ jumpAct mode ++ [.call "lin1", .call "lin2"]))
      [] ([("conv1", conv1), ("convs", convs)] ++ jumpChild mode ++ [("lin1", lin1), ("lin2", lin2)])

/-- `Dummy` (mp/models.py:430-442): the layers are without parameters (mp/layers.py:43-51). -/
def newDummy (numInput numClasses numLayers maxDim : Nat) (readout : String) :
    Py (StateM Nat NNModule) := do
  let _ ← getPoolingFn readout
  return do
    let convs ← newList (List.replicate numLayers (newLevels maxDim (pure plainModule)))
    let lin ← newLinear numInput numClasses
    return .mk (some [.call "lin"]) [] [("convs", convs), ("lin", lin)]

/-- `EdgeOrient` (`upMod` is `true`) and `EdgeMPNN` (mp/models.py:481-515, 554-587). Without layers the
nonlinearity is not looked up. -/
def EdgeArgs.newEdgeNet (a : EdgeArgs) (upMod : Bool) : Py (StateM Nat NNModule) := do
  let _ ← getPoolingFn a.readout
  let _ ← mapE (fun _ => getNonlinearity a.nonlinearity) (List.range a.numLayers)
  let _ ← makeJump a.jumpMode
  return do
    let convs ← newList ((List.range a.numLayers).map fun i =>
      newOrientedConv upMod (layerDim a.numInput a.hidden i) a.hidden)
    let lin1 ← newLinear a.hidden a.hidden
    let lin2 ← newLinear a.hidden a.numClasses
    return .mk (some ([.each "convs"] ++ jumpAct a.jumpMode ++ [.call "lin1", .call "lin2"])) []
      ([("convs", convs)] ++ jumpChild a.jumpMode ++ [("lin1", lin1), ("lin2", lin2)])

/-- `MessagePassingAgnostic` (mp/models.py:624-642). -/
def newAgnostic (numInput numClasses hidden maxDim : Nat) (nonlinearity : String) :
    Py (StateM Nat NNModule) := do
  let _ ← getNonlinearity nonlinearity
  return do
    let lin0s ← newList (List.replicate (maxDim + 1) (newLinear numInput hidden))
    let lin1 ← newLinear hidden hidden
    let lin2 ← newLinear hidden numClasses
    return .mk (some [.each "lin0s", .call "lin1", .call "lin2"]) []
      [("lin0s", lin0s), ("lin1", lin1), ("lin2", lin2)]

end Verif
