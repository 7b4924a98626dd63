import Verif.Model.Loader
import Verif.Model.TU

/-!
# The TU datasets (data/datasets/tu.py) and their folds (data/tu_utils.py:229-239)

`StratifiedKFold(n_splits=10, shuffle=True, random_state=seed).split` is external: `skf seed labels` is the list of
its (train, test) pairs. Reading the pickled graphs and writing the processed file give back what was written.
-/

namespace Verif

variable {F L : Type}

/-- `y.item()`. -/
def itemOf (y : Option (List L)) : Py L :=
  match y with
  | none => .error .attribute
  | some [a] => .ok a
  | some _ => .error .value

/-- `get_fold_indices` (data/tu_utils.py:229-239) on the labels of the items. -/
def getFoldIndices (skf : Nat → List L → Py (List (List Nat × List Nat))) (ys : List (Option (List L))) (seed : Nat)
    (fold : Int) : Py (List Nat × List Nat) := do
  pyAssert (decide (0 ≤ fold) && decide (fold < 10))
  let labels ← mapE itemOf ys
  let folds ← skf seed labels
  getAt folds fold.toNat

/-- The ids of a fold (data/datasets/tu.py:24-33 and 57-68). `files n` are the contents of `train_idx-n.txt` and
`test_idx-n.txt` if both exist, each with at least two lines (`np.loadtxt` of one line is a number, not a list);
`None + 1` is a `TypeError`. -/
def tuFold (skf : Nat → List L → Py (List (List Nat × List Nat))) (files : Int → Option (List Nat × List Nat))
    (ys : Py (List (Option (List L)))) (seed : Nat) (fold : Option Int) : Py Splits :=
  match fold with
  | none => .error .type
  | some fold =>
    match files (fold + 1) with
    | some (train, test) => .ok ⟨some train, some test, none⟩
    | none => do
      let ys ← ys
      let (train, test) ← getFoldIndices skf ys seed fold
      return ⟨some train, some test, none⟩

/-- Whether the fold is read from files. -/
def readsFolds (files : Int → Option (List Nat × List Nat)) (fold : Option Int) : Bool :=
  match fold with
  | none => false
  | some fold => (files (fold + 1)).isSome

/-- `load_tu_graph_dataset` (data/datasets/tu.py:12-34) on the converted graphs. -/
def loadTUGraphs (skf : Nat → List L → Py (List (List Nat × List Nat))) (files : Int → Option (List Nat × List Nat))
    (graphs : List (GraphData F L)) (seed : Nat) (fold : Option Int) : Py (List (GraphData F L) × Splits) := do
  let splits ← tuFold skf files (.ok (graphs.map GraphData.y)) seed fold
  return (graphs, splits)

/-- `TUDataset.process` (data/datasets/tu.py:103-121). -/
def tuProcess [DecidableEq F] [DecidableEq L] (g : Gudhi) (lib : RingLib) (agg : List F → F) (width : F → Nat)
    (graphs : List (GraphData F L)) (maxDim : Nat) (maxRingSize : Option Nat) (includeDown : Bool) :
    Py (Storage F L) := do
  let r ← match maxRingSize with
    | some size => convertWithRings g lib agg width graphs size includeDown true true
    | none => convertWithGudhi g agg width graphs maxDim includeDown
  collate r.complexes maxDim

/-- `max_ring_size is None or max_ring_size > 3` (data/datasets/tu.py:44). -/
def ringSizeOk : Option Nat → Bool
  | none => true
  | some size => decide (3 < size)

/-- `TUDataset.__init__` (data/datasets/tu.py:40-68), when the processed file is not there yet: the dataset, after
`get_fold_indices` has gone through it unless the fold is in a file, and the ids. -/
def tuDataset [DecidableEq F] [DecidableEq L] (g : Gudhi) (lib : RingLib) (agg : List F → F) (width : F → Nat)
    (order : List (List Nat) → List (List Nat)) (skf : Nat → List L → Py (List (List Nat × List Nat)))
    (files : Int → Option (List Nat × List Nat)) (graphs : List (GraphData F L)) (maxDim : Nat)
    (maxRingSize : Option Nat) (includeDown : Bool) (seed : Nat) (fold : Option Int) : Py (Dataset F L × Splits) := do
  pyAssert (ringSizeOk maxRingSize)
  pyAssert (maxRingSize.isNone || maxDim == 2)
  let st ← tuProcess g lib agg width graphs maxDim maxRingSize includeDown
  let all := Dataset.getMany order ⟨st, none⟩ (List.range (st.len order))
  let splits ← tuFold skf files (all.2.map fun cs => cs.map Complex.y) seed fold
  return (if readsFolds files fold then ⟨st, none⟩ else all.1, splits)

end Verif
