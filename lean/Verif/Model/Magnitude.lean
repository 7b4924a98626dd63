import Verif.Model.SR

/-!
# The magnitudes of the embeddings of strongly regular graphs (exp/evaluate_sr_cwn_emb_mag.py, exp/test_sr.py)

Numbers are exact here, so that double precision is not modelled. The networks are parameters: their forward passes are
those of Model/Models.lean and Model/GraphNets.lean.
-/

namespace Verif

variable {F L R : Type}

/-- The libraries as they behave in the two constructions of a dataset that follow one another: in `prepare` and when
the dataset is loaded. -/
structure SRLibs where
  gudhi : Gudhi
  rings : RingLib
  gudhi' : Gudhi
  rings' : RingLib
  order : List (List Nat) → List (List Nat)

/-- `cochain.x = cochain.x.double()` for the nodes, the edges or the two-cells of a batch
(exp/evaluate_sr_cwn_emb_mag.py:73-75): an `AttributeError` if the batch has no cochain of that dimension, which then is
`None` (data/complex.py:509-511), or the cochain has no features. -/
def inDouble (batch : Complex F L) (d : Nat) : Py Unit :=
  match batch.cochains[d]? with
  | none => .error .attribute
  | some c =>
    match c.x with
    | none => .error .attribute
    | some _ => .ok ()

/-- The body of the loop over the batches (exp/evaluate_sr_cwn_emb_mag.py:72-77, exp/test_sr.py:62-67 and 68-73). -/
def embedBatch (forward : Complex R L → Py (List R)) (batch : Complex R L) : Py (List R) := do
  inDouble batch 0
  inDouble batch 1
  inDouble batch 2
  forward batch

/-- The batches of `DataLoader(complexes, batch_size=8, shuffle=False, max_dim=2)` on a whole dataset
(exp/evaluate_sr_cwn_emb_mag.py:55, exp/test_sr.py:56-57). -/
def wholeLoader (order : List (List Nat) → List (List Nat)) (ds : Dataset F L) : Py (List (Complex F L)) :=
  ds.load order 2 (chunks 8 (List.range (ds.storage.len order)))

/-- The embeddings of all complexes of a dataset, with the check of their number of columns
(exp/evaluate_sr_cwn_emb_mag.py:55 and 69-79). The rows of a tensor are equally long. -/
def embedAll (order : List (List Nat) → List (List Nat)) (forward : Complex R L → Py (List R))
    (entries : R → List ℚ) (classes : Nat) (ds : Dataset R L) : Py (List R) := do
  let batches ← wholeLoader order ds
  let rows ← infer (embedBatch forward) batches
  pyAssert (rows.head?.all fun r => (entries r).length == classes)
  return rows

/-- `prepare` without permutation (exp/prepare_sr_tests.py:24), then `load_dataset`
(exp/evaluate_sr_cwn_emb_mag.py:50-54): the ring size is 6 (line 39), whatever the command line says. -/
def srTwice [DecidableEq R] [DecidableEq L] (libs : SRLibs) (agg : List R → R) (width : R → Nat) (one : R)
    (raw : Py (List RawGraph)) (disk : Nat → Option (Storage R L)) : Py (SRBuilt R L) := do
  let b ← srDataset libs.gudhi libs.rings agg width libs.order one raw (some 6) false disk 2
  srDataset libs.gudhi' libs.rings' agg width libs.order one raw (some 6) false b.disk 2

/-- `compute_embeddings` (exp/evaluate_sr_cwn_emb_mag.py:24-81): the embeddings, and the processed files afterwards. -/
def computeEmbeddings [DecidableEq R] [DecidableEq L] (libs : SRLibs) (agg : List R → R) (width : R → Nat) (one : R)
    (forward : Complex R L → Py (List R)) (entries : R → List ℚ) (classes : Nat) (raw : Py (List RawGraph))
    (disk : Nat → Option (Storage R L)) : Py (List R × (Nat → Option (Storage R L))) := do
  let b ← srTwice libs agg width one raw disk
  let rows ← embedAll libs.order forward entries classes b.dataset
  return (rows, b.disk)

/-- `torch.max(torch.abs(embeddings))` (exp/evaluate_sr_cwn_emb_mag.py:100, exp/test_sr.py:99); `torch.max` of nothing is
a `RuntimeError`. -/
def magnitude (entries : R → List ℚ) (rows : List R) : Py ℚ :=
  match ((rows.flatMap entries).map fun v => |v|).max? with
  | none => .error .runtime
  | some m => .ok m

/-- The seeds of one family (exp/evaluate_sr_cwn_emb_mag.py:98-102), with the processed files from one to the next.
`nets seed` is the forward pass of the network made with the seed. -/
def familyMagnitudes [DecidableEq R] [DecidableEq L] (libs : Nat → SRLibs) (agg : List R → R) (width : R → Nat) (one : R)
    (nets : Nat → Complex R L → Py (List R)) (entries : R → List ℚ) (classes : Nat)
    (raw : Py (List RawGraph)) : (Nat → Option (Storage R L)) → List Nat → Py (List ℚ)
  | _, [] => .ok []
  | disk, seed :: rest => do
    let out ← computeEmbeddings (libs seed) agg width one (nets seed) entries classes raw disk
    let m ← magnitude entries out.1
    let ms ← familyMagnitudes libs agg width one nets entries classes raw out.2 rest
    return m :: ms

/-- What the script writes: the name of the file, the first line, and the magnitudes of every family. -/
structure MagReport where
  file : String
  header : String
  magnitudes : List (List ℚ)
  deriving DecidableEq

/-- The script (exp/evaluate_sr_cwn_emb_mag.py:83-109) with its two arguments: `families` has the raw file and the
processed files of each family, `nets baseline seed` the networks. The magnitudes are printed with two decimals, which is
left out. -/
def magnitudeScript [DecidableEq R] [DecidableEq L] (libs : Nat → Nat → SRLibs) (agg : List R → R) (width : R → Nat)
    (one : R) (nets : Bool → Nat → Complex R L → Py (List R)) (entries : R → List ℚ) (classes : Nat)
    (families : List (Py (List RawGraph) × (Nat → Option (Storage R L)))) (baseline : Bool) (maxRingSize : Int) :
    Py MagReport := do
  pyAssert (decide (3 < maxRingSize))
  let ms ← mapE (fun fi => familyMagnitudes (libs fi.2) agg width one (nets baseline) entries classes fi.1.1 fi.1.2
    (List.range 5)) families.zipIdx
  return {
    file := (if baseline then "sr-base-" else "sr-") ++ toString maxRingSize ++ ".txt"
    header := "Model: " ++ (if baseline then "MLP-sum" else "CIN") ++ "(" ++ toString maxRingSize ++ ")"
    magnitudes := ms }

/-! ### The test -/

/-- `_validate_magnitude_embeddings` (exp/test_sr.py:90-102): the greatest absolute value is below the threshold. -/
def validateMagnitude (entries : R → List ℚ) (thresh : ℚ) (rows : List R) : Py Unit := do
  let apex ← magnitude entries rows
  pyAssert (decide (apex < thresh))

/-- `_get_cwn_sr_embeddings` (exp/test_sr.py:10-79), for plain and permuted graphs: `prepare` with permutation loads the
dataset, writes the file of permuted graphs and loads the dataset of these (exp/prepare_sr_tests.py:24-34); both are then
loaded again. `none`: the drawing of permutations has not ended. -/
def testEmbeddings [AddCommGroup R] [AddCommGroup L] [DecidableEq R] [DecidableEq L] (libs libs' : SRLibs)
    (agg : List R → R) (width : R → Nat) (one : R) (coo : CooLib) (draws : Nat → List (List Nat))
    (forward : Complex R L → Py (List R)) (entries : R → List ℚ) (classes : Nat) (raw : Py (List RawGraph))
    (disk disk' : Nat → Option (Storage R L)) : Py (Option (List R × List R)) := do
  let b ← srDataset libs.gudhi libs.rings agg width libs.order one raw (some 6) false disk 2
  let graphs ← loadSRGraphs (L := L) one raw
  let file ← permutedFile coo draws graphs.1
  match file with
  | none => return none
  | some data' => do
    let b' ← srDataset libs'.gudhi libs'.rings agg width libs'.order one (.ok data') (some 6) false disk' 2
    let c ← srDataset libs.gudhi' libs.rings' agg width libs.order one raw (some 6) false b.disk 2
    let c' ← srDataset libs'.gudhi' libs'.rings' agg width libs'.order one (.ok data') (some 6) false b'.disk 2
    let batches ← wholeLoader libs.order c.dataset
    let batches' ← wholeLoader libs'.order c'.dataset
    let rows ← infer (embedBatch forward) batches
    let rows' ← infer (embedBatch forward) batches'
    pyAssert (rows.length == rows'.length)
    pyAssert ((rows.head?.all fun r => (entries r).length == classes) && (rows'.head?.all fun r => (entries r).length == classes))
    return some (rows, rows')

/-- One seed of `test_sparse_cin0_self_isomorphism` or `test_cwn_baseline_self_isomorphism` (exp/test_sr.py:109-113 and
122-126). -/
def selfIsoTest [AddCommGroup R] [AddCommGroup L] [DecidableEq R] [DecidableEq L] (libs libs' : SRLibs)
    (agg : List R → R) (width : R → Nat) (one : R) (coo : CooLib) (draws : Nat → List (List Nat))
    (forward : Complex R L → Py (List R)) (entries : R → List ℚ) (classes : Nat)
    {D : Type} [LE D] [DecidableLE D] (dist : R → R → D) (eps : D) (raw : Py (List RawGraph)) (disk disk' : Nat → Option (Storage R L)) : Py (Option Unit) := do
  let out ← testEmbeddings libs libs' agg width one coo draws forward entries classes raw disk disk'
  match out with
  | none => return none
  | some (rows, rows') => do
    validateMagnitude entries 500000000 rows
    validateMagnitude entries 500000000 rows'
    let _ ← validateSelfIso dist eps rows rows'
    return some ()

end Verif
