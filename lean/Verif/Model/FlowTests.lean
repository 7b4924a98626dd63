import Verif.Model.FlowData

/-!
# The tests of the edge-flow data (data/datasets/test_flow.py, data/datasets/test_ocean.py)
-/

namespace Verif

variable {R L P D : Type}

/-- test_create_hole (data/datasets/test_flow.py:8-29) for given points, triangles and region. -/
def holeTest (points : List P) (triangles : List Tri) (inside : P → Bool) : Py Unit := do
  let r ← createHole points triangles inside
  checkExtremes r.1 r.2
  pyAssert (r.1.all fun p => !inside p)
  checkCovered r.1 r.2

/-- `index.max()`: `RuntimeError` for a matrix without columns. -/
def maxEntry (index : List (Nat × Nat)) : Py Nat :=
  match (index.flatMap fun p => [p.1, p.2]).max? with
  | some m => .ok m
  | none => .error .runtime

/-- `torch.sum(orient == 1) + torch.sum(orient == -1) == orient.numel()`. -/
def allSigns (orient : List Int) : Bool := orient.count 1 + orient.count (-1) == orient.length

/-- The checks of the adjacencies of one cochain (data/datasets/test_flow.py:46-61, data/datasets/test_ocean.py:13-29).
Attributes that are `None` have no `size`. -/
def checkAdjacencies (c : Cochain R L) : Py Unit :=
  match c.x, c.upperIndex, c.upperOrient, c.lowerIndex, c.lowerOrient with
  | some x, some ui, some uo, some li, some lo => do
    pyAssert (uo.length == ui.length)
    pyAssert (lo.length == li.length)
    let mu ← maxEntry ui
    pyAssert (decide (mu < x.length))
    let ml ← maxEntry li
    pyAssert (decide (ml < x.length))
    pyAssert (allSigns uo)
    pyAssert (allSigns lo)
  | _, _, _, _, _ => .error .attribute

/-- `torch.sum(x == 1) + torch.sum(x == -1) == torch.count_nonzero(x)` (data/datasets/test_flow.py:43-44). The entries are
taken to be integers. -/
def checkDirections (c : Cochain Int L) : Py Unit :=
  match c.x with
  | some x => pyAssert (x.count 1 + x.count (-1) == x.countP fun v => v != 0)
  | none => .error .attribute

/-- `label_count[cochain.y.item()] += 1` (data/datasets/test_flow.py:39, 63): labels other than 0 and 1 are missing keys, and
`item` needs one entry. -/
def countLabel (counts : Nat × Nat) (c : Cochain R Nat) : Py (Nat × Nat) :=
  match c.y with
  | some [l] => if l = 0 then .ok (counts.1 + 1, counts.2) else if l = 1 then .ok (counts.1, counts.2 + 1) else .error .key
  | some _ => .error .runtime
  | none => .error .attribute

/-- The body of the loop (data/datasets/test_flow.py:41-63). -/
def flowTestStep (counts : Nat × Nat) (c : Cochain Int Nat) : Py (Nat × Nat) := do
  checkDirections c
  checkAdjacencies c
  countLabel counts c

/-- test_flow_util_dataset_loading (data/datasets/test_flow.py:32-67), for given points, triangulation, random numbers and
numbers of samples (20 and 10 there). -/
def flowTest [LT D] [DecidableLT D] (lib : SparseLib) (rg : FlowRegions P) (dist : P → P → D) (points : List P)
    (simplices : List Tri) (numTrain numTest : Nat) (trainOrientation testOrientation : String)
    (trainDraws testDraws : SampleDraws) : Py Unit := do
  let r ← loadFlowDataset lib rg dist (fun k => k) points simplices numTrain numTest trainOrientation testOrientation
    trainDraws testDraws
  pyAssert (r.1.length == numTrain)
  pyAssert (r.2.1.length == numTest)
  let counts ← foldE flowTestStep (0, 0) (r.1 ++ r.2.1)
  pyAssert (counts.1 == numTrain / 2 + numTest / 2)
  pyAssert (counts.2 == numTrain / 2 + numTest / 2)

/-- test_ocean_dataset_generation (data/datasets/test_ocean.py:6-29) for a given content of the file and expected numbers of
samples (160 and 40 there). -/
def oceanTest [AddCommGroup R] {K : Type} [Ring K] [LinearOrder K] (lib : SparseLib) (toRow : Int → R)
    (edgeList : List (Nat × Nat)) (faceList : List Tri) (coords : List (K × K)) (center : K × K)
    (trajectories : List (List Nat)) (mask : List Nat) (bits : Nat → Nat → Bool) (trainOrient testOrient : String)
    (numTrain numTest : Nat) : Py Unit := do
  let r ← loadOceanDataset lib toRow edgeList faceList coords center trajectories mask bits trainOrient testOrient
  pyAssert (r.1.length == numTrain)
  pyAssert (r.2.length == numTest)
  let _ ← mapE checkAdjacencies (r.1 ++ r.2)
  return ()

end Verif
