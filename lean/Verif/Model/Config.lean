import Verif.Model.Widths
import Verif.Model.Experiment

/-!
# From arguments to an experiment (exp/parser.py, data/data_loading.py:113-258, exp/run_exp.py:19-358)

Which dataset, network, metric and scheduler an experiment starts with, and which exceptions stop it before the first
epoch. Everything on disk is a parameter (`Disk`); downloads are taken to have happened.
-/

namespace Verif

/-- The options of `get_parser` (exp/parser.py:8-117) that decide about the start of an experiment.
Simplified: integers are natural numbers; options that are only handed on to the training (seed, device, learning
rate, number of epochs, workers, folders) are left out. -/
structure Args where
  dataset : String := "PROTEINS"
  model : String := "sparse_cin"
  taskType : String := "classification"
  evalMetric : String := "accuracy"
  lrScheduler : String := "StepLR"
  minimize : Bool := false
  untrained : Bool := false
  tune : Bool := false
  fold : Option Nat := none
  simpleFeatures : Bool := false
  graphNorm : String := "bn"
  maxDim : Nat := 2
  maxRingSize : Option Nat := none
  includeDownAdj : Bool := false
  useEdgeFeatures : Bool := false
  useCoboundaries : Bool := false
  jumpMode : Option String := none
  dropRate : ℚ := 0
  nonlinearity : String := "relu"
  readout : String := "sum"
  finalReadout : String := "sum"
  readoutDims : List Nat := [0, 1, 2]
  numLayers : Nat := 5
  embDim : Nat := 64

/-- `name.startswith(prefix)`. -/
def beginsWith (pre name : String) : Bool := pre.toList.isPrefixOf name.toList

/-- The names of the OGB datasets with `'ogbg-' + name.lower()` (exp/parser.py:153-159,
data/data_loading.py:176-179, 242-246). -/
def ogbNames : List (String × String) :=
  [("MOLHIV", "ogbg-molhiv"), ("MOLPCBA", "ogbg-molpcba"), ("MOLTOX21", "ogbg-moltox21"),
   ("MOLTOXCAST", "ogbg-moltoxcast"), ("MOLMUV", "ogbg-molmuv"), ("MOLBACE", "ogbg-molbace"),
   ("MOLBBBP", "ogbg-molbbbp"), ("MOLCLINTOX", "ogbg-molclintox"), ("MOLSIDER", "ogbg-molsider"),
   ("MOLESOL", "ogbg-molesol"), ("MOLFREESOLV", "ogbg-molfreesolv"), ("MOLLIPO", "ogbg-mollipo")]

/-! ### `validate_args` -/

/-- Lines 122-130 of exp/parser.py. -/
def validateCSL (a : Args) : Py Unit := do
  pyAssert (a.model == "embed_sparse_cin")
  pyAssert (a.taskType == "classification")
  pyAssert (!a.minimize)
  pyAssert (a.lrScheduler == "ReduceLROnPlateau")
  pyAssert (a.evalMetric == "accuracy")
  pyAssert a.fold.isSome
  pyAssert (!a.simpleFeatures)
  pyAssert (a.graphNorm == "ln")

/-- Lines 131-143 of exp/parser.py. -/
def validateRing (a : Args) : Py Unit := do
  pyAssert (a.model == "ring_sparse_cin" || a.model == "gin_ring")
  pyAssert (a.taskType == "classification")
  pyAssert (!a.minimize)
  pyAssert (a.lrScheduler == "None")
  pyAssert (a.evalMetric == "accuracy")
  pyAssert a.fold.isNone
  pyAssert (!a.simpleFeatures)
  pyAssert (a.maxRingSize.any fun n => decide (3 < n))
  pyAssert (a.model != "ring_sparse_cin" || a.graphNorm == "id")
  pyAssert (a.model != "gin_ring" || a.graphNorm == "bn")

/-- Lines 144-152 of exp/parser.py. -/
def validateZinc (a : Args) : Py Unit := do
  pyAssert (beginsWith "embed" a.model)
  pyAssert (a.model != "embed_cin++" || a.includeDownAdj)
  pyAssert (a.taskType == "regression")
  pyAssert a.minimize
  pyAssert (a.evalMetric == "mae")
  pyAssert (a.lrScheduler == "ReduceLROnPlateau")
  pyAssert (!a.simpleFeatures)

/-- Lines 153-166 of exp/parser.py; `official` is `'ogbg-' + args.dataset.lower()`. -/
def validateOgb (a : Args) (official : String) : Py Unit := do
  pyAssert (a.model == "ogb_embed_sparse_cin" || a.model == "ogb_embed_cin++")
  pyAssert (a.model != "ogb_embed_cin++" || a.includeDownAdj)
  pyAssert (a.evalMetric == official)
  pyAssert a.jumpMode.isNone
  if a.dataset = "MOLESOL" ∨ a.dataset = "MOLFREESOLV" ∨ a.dataset = "MOLLIPO" then do
    pyAssert (a.taskType == "mse_regression")
    pyAssert a.minimize
  else do
    pyAssert (a.taskType == "bin_classification")
    pyAssert (!a.minimize)

/-- Lines 167-177 of exp/parser.py. -/
def validateSR (a : Args) : Py Unit := do
  pyAssert (a.model == "sparse_cin" || a.model == "mp_agnostic")
  pyAssert (a.evalMetric == "isomorphism")
  pyAssert (a.taskType == "isomorphism")
  pyAssert a.jumpMode.isNone
  pyAssert (decide (a.dropRate = 0))
  pyAssert a.untrained
  pyAssert (a.nonlinearity == "elu")
  pyAssert (a.readout == "sum")
  pyAssert (a.finalReadout == "sum")
  pyAssert (!a.simpleFeatures)

/-- Lines 178-186 of exp/parser.py. -/
def validateFlow (a : Args) : Py Unit := do
  pyAssert (a.model == "edge_orient" || a.model == "edge_mpnn")
  pyAssert (a.evalMetric == "accuracy")
  pyAssert (a.taskType == "classification")
  pyAssert a.jumpMode.isNone
  pyAssert (decide (a.dropRate = 0))
  pyAssert (!a.untrained)
  pyAssert (!a.simpleFeatures)
  pyAssert (!a.minimize)

/-- `validate_args` (exp/parser.py:120-186). -/
def validateArgs (a : Args) : Py Unit :=
  if a.dataset = "CSL" then validateCSL a
  else if a.dataset = "RING-TRANSFER" ∨ a.dataset = "RING-LOOKUP" then validateRing a
  else if beginsWith "ZINC" a.dataset then validateZinc a
  else match ogbNames.lookup a.dataset with
    | some official => validateOgb a official
    | none =>
      if beginsWith "sr" a.dataset then validateSR a
      else if a.dataset = "FLOW" ∨ a.dataset = "OCEAN" then validateFlow a
      else .ok ()

/-! ### Datasets -/

/-- The classes `load_dataset` instantiates. -/
inductive DataClass
  | sr | cluster | tu | flow | ocean | ringTransfer | ringLookup | zinc | csl | ogb | dummy | dummyMol | pepF | pepS
  deriving DecidableEq

/-- What is on disk: the number of tasks stored with an OGB dataset, the number of features of the vertices, and
whether the file of the functional peptides has the columns of the structural ones. -/
structure Disk where
  tasks : String → Nat
  width : String → Nat
  pepTargets : Bool

/-- What `main` reads of a dataset: the properties of `ComplexDataset` (data/datasets/dataset.py:68-78) and the
attributes only some classes have (`none` for a missing `num_node_type`, `num_edge_type`, `num_tasks`). `downAdj`
is `include_down_adj`, `test` tells whether there is a test split, and `readable` whether `len()` works. -/
structure Loaded where
  cls : DataClass
  maxDim : Nat
  numClasses : Option Nat
  nodeTypes : Option Nat := none
  edgeTypes : Option Nat := none
  numTasks : Option Nat := none
  rings : Option Nat := none
  downAdj : Bool := false
  test : Bool := true
  readable : Bool := true
  deriving DecidableEq

/-- `assert max_ring_size is None or max_ring_size > 3` and, with rings, `assert max_dim == 2`
(data/datasets/tu.py:44-48, data/datasets/sr.py:54-58). -/
def checkRings (a : Args) : Py Unit := do
  pyAssert (a.maxRingSize.all fun n => decide (3 < n))
  pyAssert (a.maxRingSize.isNone || a.maxDim == 2)

/-- The size of rings where it has to be a number: `range(3, max_k+1)` (data/utils.py:317) and the arithmetic of the
generators of rings (data/datasets/ring_utils.py:13-14, 62) raise `TypeError` on `None`.
Simplified: for rings of fewer than four vertices, which `validate_args` rejects, the generators may fail as well. -/
def ringSize (a : Args) : Py Nat :=
  match a.maxRingSize with
  | some n => .ok n
  | none => .error .type

/-- `fold + 1` (data/datasets/tu.py:24-25, 57-58) and `0 <= fold` (data/datasets/csl.py:27) on `None`. -/
def foldNumber (a : Args) : Py Nat :=
  match a.fold with
  | some f => .ok f
  | none => .error .type

/-- `SRDataset.__init__` (data/datasets/sr.py:49-66) as called in data/data_loading.py:116-119. -/
def openSR (a : Args) : Py Loaded := do
  checkRings a
  return { cls := .sr, maxDim := a.maxDim, numClasses := some 16, rings := a.maxRingSize }

/-- `TUDataset.__init__` (data/datasets/tu.py:40-68). The number of classes found by `download` (line 97) is
overwritten by the base class (data/datasets/dataset.py:63). -/
def openTU (numClasses : Nat) (down : Bool) (a : Args) : Py Loaded := do
  checkRings a
  let _ ← foldNumber a
  return { cls := .tu, maxDim := a.maxDim, numClasses := some numClasses, rings := a.maxRingSize, downAdj := down,
           test := false }

/-- `ClusterDataset.__init__` (data/datasets/cluster.py:14-25) as called in data/data_loading.py:121: the second
argument `max_dim` is taken as `transform`, so the maximal dimension is 2. The complexes are kept in `_data_list`,
while `slices` stays `None`: `len()` (data/datasets/dataset.py:146-150) raises `TypeError`. -/
def openCluster : Loaded := { cls := .cluster, maxDim := 2, numClasses := none, readable := false }

/-- `CSLDataset.__init__` (data/datasets/csl.py:17-51), with split files of the right form. -/
def openCSL (a : Args) : Py Loaded := do
  let n ← ringSize a
  let f ← foldNumber a
  pyAssert (decide (f ≤ 4))
  return { cls := .csl, maxDim := 2, numClasses := some 10, nodeTypes := some 1, edgeTypes := some 1, rings := some n }

/-- `ZincDataset.__init__` (data/datasets/zinc.py:12-30). -/
def openZinc (a : Args) : Py Loaded := do
  let n ← ringSize a
  return { cls := .zinc, maxDim := 2, numClasses := some 1, nodeTypes := some 28, edgeTypes := some 4, rings := some n,
           downAdj := a.includeDownAdj }

/-- `OGBDataset.__init__` (data/datasets/ogb.py:12-26); `num_classes` is not passed and stays `None`. -/
def openOGB (d : Disk) (official : String) (a : Args) : Py Loaded := do
  let n ← ringSize a
  return { cls := .ogb, maxDim := 2, numClasses := none, numTasks := some (d.tasks official), rings := some n,
           downAdj := a.includeDownAdj }

/-- `PeptidesFunctionalDataset.__init__` and `PeptidesStructuralDataset.__init__`
(data/datasets/peptides_functional.py:49-82, peptides_structural.py:55-87); the stored number of tasks is 10 and 11
(lines 195 and 205). -/
def openPeptides (cls : DataClass) (tasks : Nat) (a : Args) : Py Loaded := do
  let n ← ringSize a
  return { cls := cls, maxDim := 2, numClasses := some 1, nodeTypes := some 9, edgeTypes := some 3,
           numTasks := some tasks, rings := some n, downAdj := a.includeDownAdj }

/-- `RingTransferDataset.__init__` (data/datasets/ringtransfer.py:14-29). -/
def openRingTransfer (a : Args) : Py Loaded := do
  let n ← ringSize a
  return { cls := .ringTransfer, maxDim := 2, numClasses := some 5, rings := some n, test := false }

/-- `RingLookupDataset.__init__` (data/datasets/ringlookup.py:15-27). -/
def openRingLookup (a : Args) : Py Loaded := do
  let n ← ringSize a
  return { cls := .ringLookup, maxDim := 2, numClasses := some (n - 1), rings := some n, test := false }

/-- The branches of `load_dataset` that compare the name (data/data_loading.py:120-193). `main` passes
`include_down_adj`, `max_ring_size` and all other keywords, so no lookup in `kwargs` fails. -/
def datasetTable (d : Disk) (a : Args) : List (String × Py Loaded) :=
  [("CLUSTER", .ok openCluster),
   ("IMDBBINARY", openTU 2 false a),
   ("IMDBMULTI", openTU 3 false a),
   ("REDDITBINARY", openTU 2 false a),
   ("REDDITMULTI5K", openTU 5 false a),
   ("PROTEINS", openTU 2 a.includeDownAdj a),
   ("NCI1", openTU 2 a.includeDownAdj a),
   ("NCI109", openTU 2 a.includeDownAdj a),
   ("PTC", openTU 2 a.includeDownAdj a),
   ("MUTAG", openTU 2 a.includeDownAdj a),
   ("FLOW", .ok { cls := .flow, maxDim := 1, numClasses := some 2, downAdj := true, test := false }),
   ("OCEAN", .ok { cls := .ocean, maxDim := 1, numClasses := some 2, downAdj := true, test := false }),
   ("RING-TRANSFER", openRingTransfer a),
   ("RING-LOOKUP", openRingLookup a),
   ("ZINC", openZinc a),
   ("ZINC-FULL", openZinc a),
   ("CSL", openCSL a)] ++
  ogbNames.map (fun n => (n.1, openOGB d n.2 a)) ++
  [("DUMMY", .ok { cls := .dummy, maxDim := 3, numClasses := some 2, downAdj := true }),
   ("DUMMYM", .ok { cls := .dummyMol, maxDim := 2, numClasses := some 2, downAdj := true }),
   ("PEPTIDES-F", openPeptides .pepF 10 a),
   ("PEPTIDES-S", openPeptides .pepS 11 a)]

/-- `load_dataset` (data/data_loading.py:113-195) as called in exp/run_exp.py:77-84. -/
def loadDataset (d : Disk) (a : Args) : Py Loaded :=
  if beginsWith "sr" a.dataset then openSR a
  else match (datasetTable d a).lookup a.dataset with
    | some l => l
    | none => .error .notImplemented

/-- What `main` reads of a graph dataset: the number of classes and whether there are test ids. -/
structure Graphs where
  numClasses : Option Nat
  test : Bool
  deriving DecidableEq

/-- `load_tu_graph_dataset` (data/datasets/tu.py:12-34). -/
def graphsTU (numClasses : Nat) (a : Args) : Py Graphs := do
  let _ ← foldNumber a
  return { numClasses := some numClasses, test := false }

/-- The branch of `load_graph_dataset` for 'RING-TRANSFER' (data/data_loading.py:248-250): the keyword `num_classes`
is not a parameter of `load_ring_transfer_dataset` (data/datasets/ringtransfer.py:89). -/
def graphsRingTransfer : Py Graphs := .error .type

/-- The branch of `load_graph_dataset` for 'RING-LOOKUP' (data/data_loading.py:252-255). -/
def graphsRingLookup (a : Args) : Py Graphs := do
  let n ← ringSize a
  return { numClasses := some (n - 1), test := false }

/-- `load_pep_f_graph_dataset` (data/datasets/peptides_functional.py:212-257): the columns of line 221 are looked up
in the file of the functional dataset, and `InMemoryDataset.collate` is called on the class (line 247), a missing
argument in torch_geometric 1.6.3. -/
def graphsPepF (d : Disk) : Py Graphs := if d.pepTargets then .error .type else .error .key

/-- `load_pep_s_graph_dataset` (data/datasets/peptides_structural.py:222-267), with the same call in line 257. -/
def graphsPepS : Py Graphs := .error .type

/-- The branches of `load_graph_dataset` that compare the name (data/data_loading.py:203-255). -/
def graphTable (d : Disk) (a : Args) : List (String × Py Graphs) :=
  [("IMDBBINARY", graphsTU 2 a),
   ("IMDBMULTI", graphsTU 3 a),
   ("REDDITBINARY", graphsTU 2 a),
   ("REDDITMULTI5K", graphsTU 5 a),
   ("PROTEINS", graphsTU 2 a),
   ("NCI1", graphsTU 2 a),
   ("NCI109", graphsTU 2 a),
   ("PTC", graphsTU 2 a),
   ("MUTAG", graphsTU 2 a),
   ("ZINC", .ok { numClasses := some 1, test := true }),
   ("PEPTIDES-F", graphsPepF d),
   ("PEPTIDES-S", graphsPepS),
   ("ZINC-FULL", .ok { numClasses := some 1, test := true })] ++
  ogbNames.map (fun n => (n.1, .ok { numClasses := some (d.tasks n.2), test := true })) ++
  [("RING-TRANSFER", graphsRingTransfer),
   ("RING-LOOKUP", graphsRingLookup a)]

/-- `load_graph_dataset` (data/data_loading.py:198-258) as called in exp/run_exp.py:55-56. -/
def loadGraphs (d : Disk) (a : Args) : Py Graphs :=
  if beginsWith "sr" a.dataset then .ok { numClasses := none, test := true }
  else match (graphTable d a).lookup a.dataset with
    | some g => g
    | none => .error .notImplemented

/-! ### Networks -/

/-- The networks `main` instantiates (exp/run_exp.py:112-328). -/
inductive Net
  | cin | sparse | pp | ringSparse | gin | ringGin | ginJK | agnostic | dummy | edgeOrient | edgeMPNN
  | embedSparse | embedPP | noRings | embedGIN | ogbSparse | ogbPP
  deriving DecidableEq

/-- The comparisons of `args.model` in exp/run_exp.py:112-326. -/
def netTable : List (String × Net) :=
  [("cin", .cin), ("sparse_cin", .sparse), ("cin++", .pp), ("ring_sparse_cin", .ringSparse), ("gin", .gin),
   ("gin_ring", .ringGin), ("gin_jk", .ginJK), ("mp_agnostic", .agnostic), ("dummy", .dummy),
   ("edge_orient", .edgeOrient), ("edge_mpnn", .edgeMPNN), ("embed_sparse_cin", .embedSparse),
   ("embed_cin++", .embedPP), ("embed_sparse_cin_no_rings", .noRings), ("embed_gin", .embedGIN),
   ("ogb_embed_sparse_cin", .ogbSparse), ("ogb_embed_cin++", .ogbPP)]

/-- The network by its name; `ValueError` for others (exp/run_exp.py:327-328). -/
def netOf (name : String) : Py Net :=
  match netTable.lookup name with
  | some n => .ok n
  | none => .error .value

/-- A missing attribute. -/
def attr? (v : Option Nat) : Py Nat :=
  match v with
  | some n => .ok n
  | none => .error .attribute

/-- A size of a linear layer; `torch.nn.Linear` raises `TypeError` on `None`. -/
def layerSize (v : Option Nat) : Py Nat :=
  match v with
  | some n => .ok n
  | none => .error .type

/-- `dataset.num_features_in_dim(0)` (data/datasets/dataset.py:86-99): the flow datasets contain cochains, which have
no `dimension`. -/
def inputWidth (d : Disk) (a : Args) (l : Loaded) : Py Nat :=
  if l.cls = .flow ∨ l.cls = .ocean then .error .attribute else .ok (d.width a.dataset)

/-- A name is looked up, or not. -/
def checkName {α : Type} (used : Bool) (found : Py α) : Py Unit := if used then (fun _ => ()) <$> found else .ok ()

/-- The names a constructor looks up: readout, normalisation, nonlinearity and jumping knowledge (mp/models.py:30-51,
139-151, 275, 436, 493-505, 566-577, 631, mp/molec_models.py:51-62, 242-253, 421-423, 536-537,
mp/ring_exp_models.py:27-28, 81-83, mp/graph_models.py:37-40, 210-235).
Simplified: the oriented networks look up the nonlinearity once per layer, so not without layers; where two names
are unknown, some constructors raise the exception of the other one. -/
def lookups (readout norm act jump : Bool) (a : Args) : Py Unit := do
  checkName readout (getPoolingFn a.readout)
  checkName norm (getGraphNorm a.graphNorm)
  checkName act (getNonlinearity a.nonlinearity)
  checkName jump (makeJump a.jumpMode)

/-- A network that has been set up: its input size (features, or types of vertices), output size and dimension. -/
structure Started where
  net : Net
  input : Nat
  output : Nat
  maxDim : Nat
  deriving DecidableEq

/-- A network on features (exp/run_exp.py:112-165, 192-208). The arguments are evaluated before the constructor runs,
and the constructor looks up names before it makes the last layer. -/
def startPlain (d : Disk) (a : Args) (l : Loaded) (net : Net) (readout norm act jump : Bool) : Py Started := do
  let w ← inputWidth d a l
  lookups readout norm act jump a
  let c ← layerSize l.numClasses
  return { net := net, input := w, output := c, maxDim := l.maxDim }

/-- An oriented network (exp/run_exp.py:209-228); jumping knowledge is not passed. -/
def startEdge (a : Args) (l : Loaded) (net : Net) : Py Started := do
  lookups true false true false a
  let c ← layerSize l.numClasses
  return { net := net, input := 1, output := c, maxDim := 1 }

/-- A network on types of atoms (exp/run_exp.py:229-291). -/
def startEmbed (a : Args) (l : Loaded) (net : Net) (readout norm jump : Bool) (maxDim : Nat) : Py Started := do
  let types ← attr? l.nodeTypes
  let _ ← attr? l.edgeTypes
  lookups readout norm true jump a
  let c ← layerSize l.numClasses
  return { net := net, input := types, output := c, maxDim := maxDim }

/-- A network for OGB (exp/run_exp.py:293-326); the encoders know their nine columns of atom features. -/
def startOGB (a : Args) (l : Loaded) (net : Net) : Py Started := do
  let tasks ← attr? l.numTasks
  lookups false true true true a
  return { net := net, input := 9, output := tasks, maxDim := l.maxDim }

/-- The networks on complexes (exp/run_exp.py:112-328). The graph networks read `num_features`, which is only bound
when the name of the model begins with 'gin'. -/
def startNet (d : Disk) (a : Args) (l : Loaded) (net : Net) : Py Started :=
  match net with
  | .cin => startPlain d a l .cin true false true true
  | .sparse => startPlain d a l .sparse true true true true
  | .pp => startPlain d a l .pp true true true true
  | .ringSparse => startPlain d a l .ringSparse false true true false
  | .agnostic => startPlain d a l .agnostic false false true false
  | .dummy => startPlain d a l .dummy true false false false
  | .edgeOrient => startEdge a l .edgeOrient
  | .edgeMPNN => startEdge a l .edgeMPNN
  | .embedSparse => startEmbed a l .embedSparse false true true l.maxDim
  | .embedPP => startEmbed a l .embedPP false true true l.maxDim
  | .noRings => startEmbed a l .noRings false true false 1
  | .embedGIN => startEmbed a l .embedGIN true false false 1
  | .ogbSparse => startOGB a l .ogbSparse
  | .ogbPP => startOGB a l .ogbPP
  | .gin | .ringGin | .ginJK => .error .name

/-- The features and classes of the graphs (exp/run_exp.py:69-73). -/
def graphSizes (d : Disk) (a : Args) (g : Graphs) : Nat × Option Nat :=
  if beginsWith "sr" a.dataset then (1, some a.embDim) else (d.width a.dataset, g.numClasses)

/-- The names the graph networks look up; the networks on complexes read `dataset`, which is not bound when the name of
the model begins with 'gin'. -/
def graphNames (a : Args) : Net → Py Unit
  | .gin => lookups true false true false a
  | .ringGin => lookups false true true false a
  | .ginJK => lookups true false true false a
  | _ => .error .name

/-- A network on graphs (exp/run_exp.py:166-191). -/
def startGraphNet (d : Disk) (a : Args) (g : Graphs) (net : Net) : Py Started := do
  let sizes := graphSizes d a g
  graphNames a net
  let c ← layerSize sizes.2
  return { net := net, input := sizes.1, output := c, maxDim := 1 }

/-- The arguments of `SparseCIN` and `CINpp` (exp/run_exp.py:124-138, 140-154) for a dataset whose vertices have `width`
features; `sorted` does not matter for the readout. -/
def Args.sparse (a : Args) (width numClasses maxDim : Nat) : SparseArgs :=
  { numInput := width, numClasses := numClasses, numLayers := a.numLayers, hidden := a.embDim, maxDim := maxDim,
    jumpMode := a.jumpMode, nonlinearity := a.nonlinearity, readout := a.readout, finalReadout := a.finalReadout,
    useCoboundaries := a.useCoboundaries, graphNorm := a.graphNorm, readoutDims := some a.readoutDims }

/-! ### Metric, scheduler and the start -/

/-- The methods of `Evaluator` (exp/train_utils.py:149-165). -/
inductive EvalFn
  | isomorphism | accuracy | ap | mae | ogb (key : String)
  deriving DecidableEq

/-- `Evaluator.__init__` (exp/train_utils.py:149-165). `OGBEvaluator` is a contract: `ogbKey` gives the metric of the
datasets it knows, other names are a `ValueError`. -/
def makeEvaluator (ogbKey : String → Option String) (metric : String) : Py EvalFn :=
  if metric = "isomorphism" then .ok .isomorphism
  else if metric = "accuracy" then .ok .accuracy
  else if metric = "ap" then .ok .ap
  else if metric = "mae" then .ok .mae
  else if beginsWith "ogbg-mol" metric then
    match ogbKey metric with
    | some key => .ok (.ogb key)
    | none => .error .value
  else .error .notImplemented

/-- The scheduler (exp/run_exp.py:346-358). -/
def makeScheduler (name : String) : Py Scheduler :=
  if name = "ReduceLROnPlateau" then .ok .plateau
  else if name = "StepLR" then .ok .stepLR
  else if name = "None" then .ok .none
  else .error .notImplemented

/-- `task_type` as `train` and `eval` compare it (exp/train_utils.py:21-30, 97-106). -/
def taskOf (name : String) : Task :=
  if name = "classification" then .classification
  else if name = "bin_classification" then .binClassification
  else if name = "regression" then .regression
  else if name = "mse_regression" then .mseRegression
  else if name = "isomorphism" then .isomorphism
  else .other

/-- The splits (exp/run_exp.py:85-99): with `tune` they are asked from `get_tune_idx_split`, which only `TUDataset`
has, to raise `NotImplementedError` (data/datasets/tu.py:123-124); `get_split` needs the length. -/
def checkSplits (a : Args) (l : Loaded) : Py Unit :=
  if a.tune then (if l.cls = .tu then .error .notImplemented else .error .attribute)
  else if l.readable then .ok () else .error .type

/-- An experiment before its first epoch. -/
structure Setup where
  data : Option Loaded
  test : Bool
  net : Started
  evaluator : EvalFn
  scheduler : Scheduler

/-- `main` up to line 358 for networks on graphs (exp/run_exp.py:54-73, 101-358). -/
def startGraphs (d : Disk) (ogbKey : String → Option String) (a : Args) : Py Setup := do
  let g ← loadGraphs d a
  let e ← makeEvaluator ogbKey a.evalMetric
  let kind ← netOf a.model
  let net ← startGraphNet d a g kind
  let s ← makeScheduler a.lrScheduler
  return { data := none, test := g.test, net := net, evaluator := e, scheduler := s }

/-- `main` up to line 358 for networks on complexes (exp/run_exp.py:75-358). -/
def startComplexes (d : Disk) (ogbKey : String → Option String) (a : Args) : Py Setup := do
  let l ← loadDataset d a
  checkSplits a l
  let e ← makeEvaluator ogbKey a.evalMetric
  let kind ← netOf a.model
  let net ← startNet d a l kind
  let s ← makeScheduler a.lrScheduler
  return { data := some l, test := l.test, net := net, evaluator := e, scheduler := s }

/-- `main` (exp/run_exp.py:19-358) up to the first epoch. -/
def startExp (d : Disk) (ogbKey : String → Option String) (a : Args) : Py Setup := do
  pyAssert (taskOf a.taskType != .isomorphism || beginsWith "sr" a.dataset)
  if beginsWith "gin" a.model then startGraphs d ogbKey a else startComplexes d ogbKey a

end Verif
