import Verif.Model.Storage

/-!
# Downloading the peptides (data/datasets/peptides_functional.py:49-135, peptides_structural.py:55-138)

`download_url` and `Dataset._download` are those of torch_geometric 1.6.3, `decide_download` is that of ogb. Only files in the
root of the dataset and in one folder below it are modelled. `C` is the type of the contents of files.
-/

namespace Verif

variable {C : Type}

/-- The disk below the root of a dataset: a file is named by its folder (`""` for the root) and its name. -/
structure RawDisk (C : Type) where
  files : DiskPath → Option C
  dirs : List String

/-- The constants of a class of peptides: the folder whose version is checked, the hashes, the last parts of the two urls, the
names the files get, and whether the table is renamed before the splits. -/
structure Peptides where
  folder : String
  version : String
  splitVersion : String
  rawUrl : String
  rawName : String
  splitUrl : String
  splitName : String
  rawFirst : Bool

/-- `PeptidesFunctionalDataset` (data/datasets/peptides_functional.py:54-59, 86 and 119-131). -/
def peptidesFunctional : Peptides where
  folder := "peptides-functional"
  version := "701eb743e899f4d793f0e13c8fa5a1b4"
  splitVersion := "5a0114bdadc80b94fc7ae974f13ef061"
  rawUrl := "peptide_multi_class_dataset.csv.gz?dl=1"
  rawName := "peptide_multi_class_dataset.csv.gz"
  splitUrl := "splits_random_stratified_peptide.pickle?dl=1"
  splitName := "splits_random_stratified_peptide.pickle"
  rawFirst := true

/-- `PeptidesStructuralDataset` (data/datasets/peptides_structural.py:60-65, 91 and 125-134). -/
def peptidesStructural : Peptides where
  folder := "peptides-structural"
  version := "9786061a34298a0684150f2e4ff13f47"
  splitVersion := "5a0114bdadc80b94fc7ae974f13ef061"
  rawUrl := "peptide_structure_dataset.csv.gz?dl=1"
  rawName := "peptide_structure_dataset.csv.gz"
  splitUrl := "splits_random_stratified_peptide_structure.pickle?dl=1"
  splitName := "splits_random_stratified_peptide_structure.pickle"
  rawFirst := false

/-- One construction of the dataset: the answer to the question, whether the download is agreed to, what the two urls serve,
and after how many steps of the download the program is killed, if it is. A download that breaks off is one that serves a
part of the file and is killed after the step. -/
structure Visit (C : Type) where
  answer : String := "n"
  agrees : Bool := true
  raw : C
  splits : C
  killed : Option Nat := none

/-- The condition under which the program asks (data/datasets/peptides_functional.py:62-63, peptides_structural.py:68-69). -/
def Peptides.asks (p : Peptides) (d : RawDisk C) : Bool :=
  d.dirs.contains p.folder && (d.files (p.folder, p.version)).isNone

/-- `shutil.rmtree(self.folder)`. -/
def RawDisk.rmtree (d : RawDisk C) (folder : String) : RawDisk C where
  files q := if q.1 = folder then none else d.files q
  dirs := d.dirs.filter (· ≠ folder)

/-- Lines 61-66 of data/datasets/peptides_functional.py, 67-72 of peptides_structural.py. -/
def Peptides.checkVersion (p : Peptides) (answer : String) (d : RawDisk C) : RawDisk C :=
  if p.asks d then if answer.toLower = "y" then d.rmtree p.folder else d else d

/-- Writing a file; a file of this name is replaced. -/
def RawDisk.write (d : RawDisk C) (path : DiskPath) (c : C) : RawDisk C :=
  { d with files := fun q => if q = path then some c else d.files q }

/-- `download_url` (torch_geometric 1.6.3): an existing file is used. -/
def fetch (path : DiskPath) (served : C) (d : RawDisk C) : Py (RawDisk C) :=
  if (d.files path).isSome then .ok d else .ok (d.write path served)

/-- The comparison of `_md5sum(path)` with the expected hash. -/
def checkHash (md5 : C → String) (path : DiskPath) (want : String) (e : PyErr) (d : RawDisk C) : Py (RawDisk C) :=
  match d.files path with
  | none => .error .runtime
  | some c => if md5 c = want then .ok d else .error e

/-- `os.rename`; `FileNotFoundError` if there is no such file. -/
def renameFile (old new : DiskPath) (d : RawDisk C) : Py (RawDisk C) :=
  match d.files old with
  | none => .error .runtime
  | some c => .ok { d with files := fun q => if q = new then some c else if q = old then none else d.files q }

/-- The renaming of the table. -/
def Peptides.renameRaw (p : Peptides) : RawDisk C → Py (RawDisk C) := renameFile ("raw", p.rawUrl) ("raw", p.rawName)

/-- The renaming of the splits. -/
def Peptides.renameSplits (p : Peptides) : RawDisk C → Py (RawDisk C) := renameFile ("", p.splitUrl) ("", p.splitName)

/-- `download` as a list of steps (data/datasets/peptides_functional.py:110-131, peptides_structural.py:115-134). The hash of
the table, if it is the expected one, names an empty file in the root. -/
def Peptides.download (p : Peptides) (md5 : C → String) (blank : C) (v : Visit C) : List (RawDisk C → Py (RawDisk C)) :=
  [fetch ("raw", p.rawUrl) v.raw,
    checkHash md5 ("raw", p.rawUrl) p.version .value,
    fun d => .ok (d.write ("", p.version) blank),
    fetch ("", p.splitUrl) v.splits,
    checkHash md5 ("", p.splitUrl) p.splitVersion .assertion] ++
  if p.rawFirst then [p.renameRaw, p.renameSplits] else [p.renameSplits, p.renameRaw]

/-- Steps one after the other, if the program is not killed; `none` if it is. -/
def runSteps : List (RawDisk C → Py (RawDisk C)) → Option Nat → RawDisk C → RawDisk C × Option (Py Unit)
  | [], _, d => (d, some (.ok ()))
  | _ :: _, some 0, d => (d, none)
  | op :: ops, k, d =>
    match op d with
    | .error e => (d, some (.error e))
    | .ok d => runSteps ops (k.map (· - 1)) d

/-- What `process` reads: the table and the splits (data/datasets/peptides_functional.py:146-147 and 205-208,
peptides_structural.py:149-150 and 213-216). -/
def Peptides.sources (p : Peptides) (d : RawDisk C) : Py (C × C) := do
  let raw ← match d.files ("raw", p.rawName) with
    | none => .error .runtime
    | some c => .ok c
  let splits ← match d.files ("", p.splitName) with
    | none => .error .runtime
    | some c => .ok c
  return (raw, splits)

/-- The construction of a dataset without processed files up to the point where the sources are read: `Dataset._download`
(torch_geometric 1.6.3) downloads unless the raw file exists. The result is `none` if the program ends before that. -/
def Peptides.construct (p : Peptides) (md5 : C → String) (blank : C) (v : Visit C) (d : RawDisk C) :
    RawDisk C × Option (Py (C × C)) :=
  let d := p.checkVersion v.answer d
  if (d.files ("raw", p.rawName)).isSome then (d, some (p.sources d))
  else
    let d := { d with dirs := "raw" :: d.dirs }
    if v.agrees then
      match runSteps (p.download md5 blank v) v.killed d with
      | (d, none) => (d, none)
      | (d, some (.error e)) => (d, some (.error e))
      | (d, some (.ok _)) => (d, some (p.sources d))
    else (d, none)

/-- The disk after several constructions. -/
def Peptides.after (p : Peptides) (md5 : C → String) (blank : C) (history : List (Visit C)) (d : RawDisk C) : RawDisk C :=
  history.foldl (fun d v => (p.construct md5 blank v d).1) d

end Verif
