import Verif.Model.TUDataset
import Verif.Model.Perm
import Verif.Model.Summary

/-!
# The datasets of strongly regular graphs (data/datasets/sr.py, data/sr_utils.py, exp/prepare_sr_tests.py) and their
experiment (exp/run_sr_exp.py)

Reading of graph6 files and pickles is external: a file is the list of graphs in it. `process` reads the raw files
below the folder of the project whatever root the dataset has (data/datasets/sr.py:82), which is not modelled.
-/

namespace Verif

variable {F L R : Type}

/-- A graph as the raw files hold it: the edge index and the number of nodes. -/
abbrev RawGraph := List (Nat × Nat) × Nat

/-- `load_sr_dataset` (data/sr_utils.py:6-15) on the graphs in the file; `toUndirected` is
`torch_geometric.utils.to_undirected`. The transpose of a tensor without entries is an `IndexError`. -/
def readG6 (toUndirected : List (Nat × Nat) → List (Nat × Nat)) (file : List RawGraph) : Py (List RawGraph) :=
  mapE (fun G => if G.1 = [] then .error .index else .ok (toUndirected G.1, G.2)) file

/-- The choice between the two files (data/datasets/sr.py:28-33): `g6` is what the graph6 file gives, `pkl` the content
of the pickle if there is one. -/
def srRaw (g6 : Py (List RawGraph)) (pkl : Option (List RawGraph)) (preferPkl : Bool) : Py (List RawGraph) :=
  match pkl with
  | some data => if preferPkl then .ok data else g6
  | none => g6

/-- The graph made of an entry (data/datasets/sr.py:36-38); `one` is a feature row of ones. -/
def srGraph (one : F) (G : RawGraph) : GraphData F L where
  x := some (List.replicate G.2 one)
  edgeIndex := G.1
  numNodes := G.2

/-- All items in every split (data/datasets/sr.py:40-42 and 63-65). -/
def allItems (n : Nat) : Splits := ⟨some (List.range n), some (List.range n), some (List.range n)⟩

/-- `load_sr_graph_dataset` (data/datasets/sr.py:24-43). -/
def loadSRGraphs (one : F) (raw : Py (List RawGraph)) : Py (List (GraphData F L) × Splits) := do
  let data ← raw
  return (data.map (srGraph one), allItems data.length)

/-- The conversion in `SRDataset.process` (data/datasets/sr.py:84-101). -/
def srConvert [DecidableEq F] [DecidableEq L] (g : Gudhi) (lib : RingLib) (agg : List F → F) (width : F → Nat)
    (graphs : List (GraphData F L)) (maxDim : Nat) (maxRingSize : Option Nat) (includeDown : Bool) :
    Py (Converted F L) :=
  match maxRingSize with
  | some size => convertWithRings g lib agg width graphs size includeDown true true
  | none => convertWithGudhi g agg width graphs maxDim includeDown

/-- `SRDataset.process` (data/datasets/sr.py:80-110): what is saved, and the dimension that the dataset has then. The
dimension of an empty dataset is -1, with which saving fails; here it is 0, with which it fails, too. -/
def srProcess [DecidableEq F] [DecidableEq L] (g : Gudhi) (lib : RingLib) (agg : List F → F) (width : F → Nat)
    (graphs : List (GraphData F L)) (maxDim : Nat) (maxRingSize : Option Nat) (includeDown : Bool) :
    Py (Storage F L × Nat) := do
  let r ← srConvert g lib agg width graphs maxDim maxRingSize includeDown
  let dim := r.dimension.getD 0
  pyAssert (maxRingSize.isNone || decide (dim ≤ 2))
  let st ← collate r.complexes dim
  return (st, dim)

/-- A dataset that has been constructed: the processed files after it (by the dimension in the name of the folder; all
other options in it stay the same), the dataset, its dimension and its splits. -/
structure SRBuilt (F L : Type) where
  disk : Nat → Option (Storage F L)
  dataset : Dataset F L
  maxDim : Nat
  splits : Splits

/-- Loading the processed file and the splits (data/datasets/sr.py:61-65). -/
def srLoad (order : List (List Nat) → List (List Nat)) (disk : Nat → Option (Storage F L)) (maxDim : Nat) :
    Py (SRBuilt F L) :=
  match disk maxDim with
  | none => .error .attribute
  | some st => .ok ⟨disk, ⟨st, none⟩, maxDim, allItems (st.len order)⟩

/-- `SRDataset.__init__` (data/datasets/sr.py:49-65). The base class calls `process` if the file in the folder of the
requested dimension is not there; `process` saves in the folder of the dimension that it finds. -/
def srDataset [DecidableEq F] [DecidableEq L] (g : Gudhi) (lib : RingLib) (agg : List F → F) (width : F → Nat)
    (order : List (List Nat) → List (List Nat)) (one : F) (raw : Py (List RawGraph)) (maxRingSize : Option Nat)
    (includeDown : Bool) (disk : Nat → Option (Storage F L)) (maxDim : Nat) : Py (SRBuilt F L) := do
  pyAssert (ringSizeOk maxRingSize)
  pyAssert (maxRingSize.isNone || maxDim == 2)
  if (disk maxDim).isSome then srLoad order disk maxDim
  else do
    let graphs ← loadSRGraphs one raw
    let r ← srProcess g lib agg width graphs.1 maxDim maxRingSize includeDown
    srLoad order (fun d => if d = r.2 then some r.1 else disk d) r.2

/-! ### Permuted graphs -/

/-- The permuted copy of one graph (exp/prepare_sr_tests.py:28-30): `draws n` are the permutations that the random state
with the fixed seed yields for `n` nodes. `none`: no permutation was accepted yet. -/
def permutedRaw [AddCommGroup R] [AddCommGroup L] (coo : CooLib) (draws : Nat → List (List Nat)) (G : GraphData R L) :
    Py (Option RawGraph) := do
  let Ps ← generatePermutationMatrices G.numNodes 1 (draws G.numNodes) []
  match Ps with
  | none => return none
  | some Ps => do
    let P ← getAt Ps 0
    let H ← permuteGraph coo ⟨G.x.getD [], G.y, G.edgeIndex, G.edgeAttr.isSome⟩ P
    return some (H.edges, H.x.length)

/-- The raw file of permuted graphs that `prepare` writes (exp/prepare_sr_tests.py:25-32). -/
def permutedFile [AddCommGroup R] [AddCommGroup L] (coo : CooLib) (draws : Nat → List (List Nat))
    (graphs : List (GraphData R L)) : Py (Option (List RawGraph)) := do
  let out ← mapE (permutedRaw coo draws) graphs
  return if none ∈ out then none else some (out.filterMap id)

/-- `_validate_self_iso_on_sr` (exp/test_sr.py:80-87) with `embeddings.size(0)` rounds; an index that is not there is an
`IndexError`. -/
def validateSelfIso {P D : Type} [LE D] [DecidableLE D] (dist : P → P → D) (eps : D) (embeddings permuted : List P) :
    Py (List Unit) :=
  mapE (fun i => do
    let a ← getAt embeddings i
    let b ← getAt permuted i
    pyAssert (decide (dist a b ≤ eps))) (List.range embeddings.length)

/-! ### The experiment -/

/-- `__max_dim__` (exp/run_sr_exp.py:29-38), one for each of the nine families of lines 17-27. -/
def srMaxDims : List Nat := [3, 4, 3, 6, 4, 4, 6, 3, 3]

/-- The dimension of a run (exp/run_sr_exp.py:71-80): `maxDim` and `rings` are the arguments passed on the command line,
`family` the place of the family in the list. -/
def srRunDim (maxDim : Option Nat) (rings : Option Nat) (family : Nat) : Py Nat :=
  match maxDim, rings with
  | none, none => getAt srMaxDims family
  | none, some _ => .ok 2
  | some d, none => .ok d
  | some _, some _ => .error .assertion

/-- The arguments of one run (exp/run_sr_exp.py:70-84). -/
structure SRRun where
  family : Nat
  seed : Nat
  maxDim : Nat
  readoutDims : List Nat
  deriving DecidableEq

/-- The arguments of one run. -/
def srRun (maxDim : Option Nat) (rings : Option Nat) (family seed : Nat) : Py SRRun := do
  let d ← srRunDim maxDim rings family
  return ⟨family, seed, d, List.range (d + 1)⟩

/-- What is printed for a family (exp/run_sr_exp.py:97-110). `std_err` is the standard deviation divided by the number
of runs; here is its square. -/
structure SRSummary where
  mean : Option ℚ
  stdErrSq : Option ℚ
  min : Option ℚ
  max : Option ℚ
  deriving DecidableEq

/-- The summary of a family (exp/run_sr_exp.py:94-100); `np.min` of nothing is a `ValueError`. -/
def srSummary (start stop : Nat) (perfs : List (Option ℚ)) : Py SRSummary := do
  pyAssert (decide ((perfs.length : Int) = (stop : Int) + 1 - start))
  if perfs = [] then .error .value
  else return ⟨npMean perfs, (npVar 0 perfs).map (· / ((perfs.length : ℚ) * perfs.length)), npMin perfs, npMax perfs⟩

/-- The script (exp/run_sr_exp.py:65-110): all runs, family by family and seed by seed, then a summary for each family.
`main` gives the report of a run. -/
def srExperiment (main : SRRun → Py Report) (maxDim : Option Nat) (rings : Option Nat) (start stop : Nat) :
    Py (List SRSummary) := do
  let results ← mapE (fun f => mapE (fun s => do
    let r ← srRun maxDim rings f s
    let rep ← main r
    return rep.lastTest) (List.range' start (stop + 1 - start))) (List.range srMaxDims.length)
  mapE (srSummary start stop) results

end Verif
