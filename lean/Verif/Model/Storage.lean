import Verif.Model.Folders

/-!
# Processed files on disk (data/datasets/*.py and `torch_geometric.data.Dataset`)

A file is named by its folder below the root of the dataset and its own name. `torch.save`, `torch.load`
and `pickle` are external: what is written is what is read, and a write is atomic. The files
`pre_transform.pt` and `pre_filter.pt`, which nothing reads back, and the raw files are left out.
-/

namespace Verif

variable {O V : Type}

/-- `osp.join(self.processed_dir, name)` below the root; neither part contains a slash. -/
abbrev DiskPath := String × String

/-- The files on disk with their contents; a later entry for the same path is shadowed. -/
abbrev Files (V : Type) := List (DiskPath × V)

/-- `files_exist` (external contract, torch_geometric 1.6.3 data/dataset.py): there are file names, and all
the files exist. -/
def filesExist (fs : Files V) (ps : List DiskPath) : Bool :=
  !ps.isEmpty && ps.all fun p => (fs.lookup p).isSome

/-- `torch.load` or `pickle.load`; Python raises `FileNotFoundError` if there is no such file. -/
def loadFile (fs : Files V) (p : DiskPath) : Py V :=
  match fs.lookup p with
  | none => .error .runtime
  | some v => .ok v

/-- `torch.save` or `pickle.dump` one after the other; a file of the same name is replaced. -/
def writeFiles (fs : Files V) (entries : List (DiskPath × V)) : Files V :=
  entries.foldl (fun fs e => e :: fs) fs

/-- A class of datasets: `processed_paths` for given options, and `process`, which may change the options of
the dataset (data/datasets/sr.py:103-105) and draw random numbers. It yields the contents of the files, in
the order in which it writes them. -/
structure Store (O V : Type) where
  paths : O → List DiskPath
  process : O → Nat → Py (O × List V)

/-- One construction of a dataset: its options, the random numbers it would draw, and whether the program is
killed in `process` (after that many files have been written). -/
structure Attempt (O : Type) where
  options : O
  draw : Nat := 0
  killed : Option Nat := none

/-- The constructor of a dataset: `Dataset._process` (external contract, torch_geometric 1.6.3) runs `process`
unless all processed files exist, and then the files are loaded (data/datasets/tu.py:53, sr.py:62, zinc.py:44-49,
ogb.py:51-57, csl.py:65-69, ringtransfer.py:24-25, ringlookup.py:22-23, flow.py:27-33, ocean.py:26-38,
cluster.py:42-51, dummy.py:14, 54). The result is `none` if the program was killed.
Simplified: the graph of the flow and ocean datasets is read even if `load_graph` is not set. -/
def openDataset (S : Store O V) (fs : Files V) (a : Attempt O) : Files V × Option (Py (List V)) :=
  if filesExist fs (S.paths a.options) then (fs, some (mapE (loadFile fs) (S.paths a.options)))
  else
    match S.process a.options a.draw with
    | .error e => (fs, some (.error e))
    | .ok (o, vs) =>
      match a.killed with
      | some n => (writeFiles fs (((S.paths o).zip vs).take n), none)
      | none =>
        let fs := writeFiles fs ((S.paths o).zip vs)
        (fs, some (mapE (loadFile fs) (S.paths o)))

/-- Constructions one after the other, in the same or in different processes. -/
def openAll (S : Store O V) : Files V → List (Attempt O) → Files V × List (Option (Py (List V)))
  | fs, [] => (fs, [])
  | fs, a :: as =>
    let r := openDataset S fs a
    let rest := openAll S r.1 as
    (rest.1, r.2 :: rest.2)

/-! ### The file names -/

/-- `processed_paths` of the TU and SR datasets (data/datasets/tu.py:84-86, sr.py:76-78). -/
def tuPaths (name : String) (o : TUOptions) : List DiskPath :=
  [(tuFolder o, name ++ "_complex_list.pt")]

/-- `processed_paths` of ZINC (data/datasets/zinc.py:36-39). -/
def zincPaths (o : ZincOptions) : List DiskPath :=
  [(zincFolder o, "ZINC_complex.pt"), (zincFolder o, "ZINC_idx.pt")]

/-- `processed_paths` of the OGB and peptides datasets (data/datasets/ogb.py:34-36, peptides_functional.py:88-90,
peptides_structural.py:93-95). -/
def ogbPaths (name : String) (o : OGBOptions) : List DiskPath :=
  [(ogbFolder o, name ++ "_complex.pt"), (ogbFolder o, name ++ "_idx.pt"), (ogbFolder o, name ++ "_tasks.pt")]

/-- `processed_paths` of CSL (data/datasets/csl.py:57-59, 116-121). -/
def cslPaths (initMethod : String) (maxRingSize : Nat) : List DiskPath :=
  [(baseFolder true 2 initMethod ++ ringSuffix (some maxRingSize), "complexes.pt")]

/-- `processed_paths` of the flow dataset (data/datasets/flow.py:45-47). -/
def flowPaths (name : String) (o : FlowOptions) : List DiskPath :=
  [(flowFolder o, name ++ "_complex_list.pkl"), (flowFolder o, name ++ "_graph.pkl")]

/-- `processed_paths` of the ring-transfer dataset (data/datasets/ringtransfer.py:31-38). -/
def transferPaths (nodes : Nat) : List DiskPath :=
  [("complex", "ringtree-n" ++ toString nodes ++ ".pkl"), ("complex", "idx-n" ++ toString nodes ++ ".pkl")]

/-- `processed_paths` of the ring-lookup dataset (data/datasets/ringlookup.py:29-36). -/
def lookupPaths (nodes : Nat) : List DiskPath :=
  [("complex", "ringlookup-n" ++ toString nodes ++ ".pkl"), ("complex", "idx-n" ++ toString nodes ++ ".pkl")]

/-- `processed_paths` of the ocean dataset (data/datasets/ocean.py:43-52). -/
def oceanFiles (name trainOrient testOrient : String) : List DiskPath :=
  let folder := "complex_" ++ trainOrient ++ "_" ++ testOrient
  [(folder, "train_" ++ name ++ "_complex_list.pkl"), (folder, "val_" ++ name ++ "_complex_list.pkl"),
    (folder, name ++ "_graph.pkl")]

/-- `processed_paths` of the dummy dataset of molecules (data/datasets/dummy.py:59-67); init method `None`. -/
def dummyMolPaths (remove2feats : Bool) : List DiskPath :=
  [(baseFolder true 2 "None", "DUMMYM_complex_list" ++ flag remove2feats "_removed_2feats" ++ ".pt")]

/-! ### The datasets -/

/-- A class whose `process` leaves the options as they are. -/
def Store.plain (paths : O → List DiskPath) (contents : O → Nat → Py (List V)) : Store O V where
  paths := paths
  process o draw := do
    let vs ← contents o draw
    return (o, vs)

/-- The SR datasets (data/datasets/sr.py:80-110), which share a root (data/data_loading.py:117): `max_dim` becomes
the largest dimension of the complexes, and the file goes to the folder for that dimension. `convert` stands for
the graphs of that name lifted to complexes (convert_graph_dataset_with_rings, convert_graph_dataset_with_gudhi)
and their largest dimension. -/
def srStore (convert : String × TUOptions → Py (Nat × V)) : Store (String × TUOptions) V where
  paths o := tuPaths o.1 o.2
  process o _ := do
    let r ← convert o
    pyAssert (o.2.maxRingSize.isNone || decide (r.1 ≤ 2))
    return ((o.1, { o.2 with maxDim := r.1 }), [r.2])

/-- The ids of the flow dataset come from the arguments, not from the files (data/datasets/flow.py:35-36). -/
def flowIds (o : FlowOptions) : List Nat × List Nat :=
  (List.range o.trainSamples, (List.range o.valSamples).map fun i => o.trainSamples + i)

end Verif
