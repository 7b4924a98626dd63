import Verif.Model.Flow
import Verif.Model.Ocean
import Verif.Model.Oriented
import Verif.Model.Batch
import Verif.Model.Loader

/-!
# The edge-flow datasets from points to batches (data/datasets/flow_utils.py:255-333, data/datasets/flow.py,
data/datasets/ocean_utils.py:172-269, data/datasets/ocean.py, data/data_loading.py:51-56)

Random numbers, the Delaunay triangulation and the contents of the ocean file are given. Files written by `process`
and read by the constructors are taken to return what was written. Printing is left out except where it can raise
an exception.
-/

namespace Verif

variable {P D R K : Type}

/-- The rectangles of the flow dataset: start, end, the checkpoints of the two classes
(data/datasets/flow_utils.py:259-263) and the holes (lines 291-292). -/
structure FlowRegions (P : Type) where
  start : P → Bool
  stop : P → Bool
  bot : P → Bool
  top : P → Bool
  hole1 : P → Bool
  hole2 : P → Bool

/-- `ckpts[class_id]` (data/datasets/flow_utils.py:263-266), for the classes 0 and 1. -/
def FlowRegions.ckpt (rg : FlowRegions P) (classId : Nat) : P → Bool := if classId = 0 then rg.bot else rg.top

/-- `generate_flow_cochain` (data/datasets/flow_utils.py:255-268). `toRow` makes a row of features of a flow value.
When all the given attempts at a trajectory are stuck the result is `runtime`: the code goes on with fresh random
numbers and in the end raises `RecursionError`, which is a `RuntimeError`. -/
def generateFlowCochain [LT D] [DecidableLT D] [AddCommGroup R] (lib : SparseLib) (rg : FlowRegions P)
    (dist : P → P → D) (toRow : Int → R) (points : List P) (G : FlowGraph) (B1 B2 T2 : Mat) (classId : Nat)
    (draws : List Draw) : Py (Cochain R Nat) := do
  pyAssert (decide (classId ≤ 1))
  let t ← generateTrajectory G points dist rg.start rg.stop (rg.ckpt classId) draws
  match t with
  | none => .error .runtime
  | some (x, _) => buildCochain lib B1 B2 T2 (x.map toRow) classId (some G.edges.length)

/-- The samples of one split (data/datasets/flow_utils.py:318-331); `bits i` and `draws i` are the random numbers of
sample `i`. The samples are made in parallel; their order is that of the classes. -/
def flowSamples [LT D] [DecidableLT D] [AddCommGroup R] (lib : SparseLib) (rg : FlowRegions P) (dist : P → P → D)
    (toRow : Int → R) (points : List P) (G : FlowGraph) (B1 B2 : Mat) (n : Nat) (orientation : String)
    (bits : Nat → Nat → Bool) (draws : Nat → List Draw) : Py (List (Cochain R Nat)) :=
  mapE (fun i => do
    let classId ← flowClass n i
    let T2 ← orientMatrix B1.cols orientation (bits i)
    generateFlowCochain lib rg dist toRow points G B1 B2 T2 classId (draws i)) (List.range n)

/-- Each point appears in some triangle (data/datasets/flow_utils.py:288-289, 297-298, 303-304). -/
def checkCovered (points : List P) (triangles : List Tri) : Py Unit :=
  pyAssert ((List.range points.length).all fun i => triangles.any fun t => t.corners.contains i)

/-- `np.min(triangles) == 0` and `np.max(triangles) == len(points) - 1` (data/datasets/flow_utils.py:306-307);
`ValueError` for no triangles. -/
def checkExtremes (points : List P) (triangles : List Tri) : Py Unit :=
  match (triangles.flatMap Tri.corners).min?, (triangles.flatMap Tri.corners).max? with
  | some lo, some hi => do
    pyAssert (decide (lo = 0))
    pyAssert (decide (hi + 1 = points.length))
  | _, _ => .error .value

/-- The points and triangles with the two holes (data/datasets/flow_utils.py:287-307). -/
def flowTriangulation (rg : FlowRegions P) (points : List P) (simplices : List Tri) : Py (List P × List Tri) := do
  checkCovered points simplices
  let h1 ← createHole points simplices rg.hole1
  checkCovered h1.1 h1.2
  let h2 ← createHole h1.1 h1.2 rg.hole2
  checkCovered h2.1 h2.2
  checkExtremes h2.1 h2.2
  return h2

/-- The random numbers of a split. -/
structure SampleDraws where
  bits : Nat → Nat → Bool
  draws : Nat → List Draw

/-- `load_flow_dataset` (data/datasets/flow_utils.py:282-333) for given points and their triangulation. -/
def loadFlowDataset [LT D] [DecidableLT D] [AddCommGroup R] (lib : SparseLib) (rg : FlowRegions P) (dist : P → P → D)
    (toRow : Int → R) (points : List P) (simplices : List Tri) (numTrain numTest : Nat)
    (trainOrientation testOrientation : String) (trainDraws testDraws : SampleDraws) :
    Py (List (Cochain R Nat) × List (Cochain R Nat) × FlowGraph) := do
  let tri ← flowTriangulation rg points simplices
  let G ← graphFromTriangulation tri.1 tri.2
  pyAssert (decide (G.nodes.length = tri.1.length))
  let B ← extractBoundaryMatrices G tri.2
  pyAssert (decide (B.1.cols = B.2.rows))
  let train ← flowSamples lib rg dist toRow tri.1 G B.1 B.2 numTrain trainOrientation trainDraws.bits trainDraws.draws
  let test ← flowSamples lib rg dist toRow tri.1 G B.1 B.2 numTest testOrientation testDraws.bits testDraws.draws
  return (train, test, G)

/-- What a dataset of cochains consists of: `__data_list__` and the ids of the splits. -/
structure CochainDataset (R L : Type) where
  items : List (Cochain R L)
  splits : Splits

/-- `FlowDataset` (data/datasets/flow.py:15-43, 55-70, 79-81). -/
def flowDataset (train val : List (Cochain R Nat)) (trainSamples valSamples : Nat) : CochainDataset R Nat where
  items := train ++ val
  splits := { train := some (List.range trainSamples)
              valid := some ((List.range valSamples).map fun i => trainSamples + i)
              test := none }

/-- `OceanDataset` (data/datasets/ocean.py:17-45, 58-76). -/
def oceanDataset (train val : List (Cochain R Nat)) : CochainDataset R Nat where
  items := train ++ val
  splits := { train := some (List.range train.length)
              valid := some ((List.range val.length).map fun i => train.length + i)
              test := none }

/-- The order of faces as lists. -/
def triLe (s t : Tri) : Bool :=
  decide (s.1 < t.1) || (decide (s.1 = t.1) && pairLe s.2 t.2)

/-- The cochain of one path (data/datasets/ocean_utils.py:252-264). -/
def oceanCochain [AddCommGroup R] (lib : SparseLib) (toRow : Int → R) (B1 B2 : Mat) (numEdges : Nat)
    (flows : List (List Int)) (labels : List Nat) (bits : Nat → Nat → Bool) (i : Nat) (orient : String) :
    Py (Cochain R Nat) := do
  let T2 ← orientMatrix B1.cols orient (bits i)
  let x ← getAt flows i
  let y ← getAt labels i
  buildCochain lib B1 B2 T2 (x.map toRow) y (some numEdges)

/-- `load_ocean_dataset` (data/datasets/ocean_utils.py:172-269) for a given content of the file. `center` is the point
computed from the coordinates (line 168), `mask` the shuffled mask (lines 232-233). Line 220 takes the maximum of the
lengths of the paths, a `ValueError` when there are none, and line 238 prints `labels[100]`, an `IndexError` when
there are not more than 100 paths. The edges of `G` are those in `E`. -/
def loadOceanDataset [AddCommGroup R] [Ring K] [LinearOrder K] (lib : SparseLib) (toRow : Int → R)
    (edgeList : List (Nat × Nat)) (faceList : List Tri) (coords : List (K × K)) (center : K × K)
    (trajectories : List (List Nat)) (mask : List Nat) (bits : Nat → Nat → Bool) (trainOrient testOrient : String) :
    Py (List (Cochain R Nat) × List (Cochain R Nat)) := do
  let V := (oceanArrays edgeList).1
  let E := (oceanArrays edgeList).2
  let faces := faceList.insertionSort fun s t => triLe s t = true
  let B ← incidenceMatrices V E faces (edgeNumbers E)
  let paths ← oceanPaths trajectories
  if paths = [] then .error .value
  else do
    let flows ← mapE (fun p => pathToFlow p (edgeNumbers E) E.length) paths
    let labels ← mapE (fun p => extractLabel p coords center) paths
    let _ ← getAt labels 100
    pyAssert (decide (labels.length = mask.length))
    pyAssert (decide (B.1.cols = B.2.rows))
    splitCochains flows.length mask (oceanCochain lib toRow B.1 B.2 E.length flows labels bits) trainOrient testOrient

/-- The batches of `DataLoader(dataset.get_split(split), …)` for a dataset of cochains: `get` returns a copy of the
stored item (data/datasets/dataset.py:152-160) and `Collater.collate` makes a `CochainBatch`
(data/data_loading.py:51-56). -/
def cochainLoader {L : Type} (ds : CochainDataset R L) (split : String) (shuffle : Option (List Nat))
    (batchSize : Nat) : Py (List (Cochain R L)) := do
  let ids ← splitIds ds.splits none split
  let items ← mapE (getAt ds.items) ids
  let positions ← samplerOf items.length shuffle
  if batchSize = 0 then .error .value
  else do
    let picked ← mapE (getAt items) positions
    mapE fromCochainList (chunks batchSize picked)

end Verif
