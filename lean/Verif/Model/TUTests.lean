import Verif.Model.TUDataset

/-!
# The test of degrees as tags (data/test_tu_utils.py) and the graphs of a fold (data/tu_utils.py:197-226)
-/

namespace Verif

variable {L : Type}

/-- `torch.argmax(feats, 1)` for one row: the first place of the maximum. An empty row, on which it fails, does not get
here, as it does not sum to one. -/
def rowArgmax (row : List Nat) : Nat := row.idxOf (row.foldl max 0)

/-- The body of the second loop of `validate_degree_as_tag` (data/test_tu_utils.py:40-49) with the degrees of the graph.
Every degree is a key of the encoder. -/
def checkTags (encoder : List Nat) (p : GraphData (List Nat) L × List Nat) : Py Unit :=
  match p.1.x with
  | none => .error .attribute
  | some feats => do
    pyAssert (feats.all fun row => decide (row.length = encoder.length))
    pyAssert (feats.all fun row => decide (row.sum = 1))
    pyAssert (decide (feats.map rowArgmax = p.2.map fun d => encoder.idxOf d))

/-- `validate_degree_as_tag` (data/test_tu_utils.py:30-49). The place of a degree in the sorted list of degrees is its code. -/
def validateDegreeAsTag (graphs : List (GraphData (List Nat) L)) : Py Unit := do
  let degrees := graphs.map fun G => torchDegree (G.edgeIndex.map fun e => (e.1 : Int))
  let _ ← mapE (checkTags (uniqueDegrees degrees.flatten)) (graphs.zip degrees)
  return ()

/-- `separate_data` (data/tu_utils.py:197-211). -/
def separateData (skf : Nat → List Nat → Py (List (List Nat × List Nat))) (graphs : List TUGraph) (seed : Nat) (fold : Int) :
    Py (List TUGraph × List TUGraph) := do
  pyAssert (decide (0 ≤ fold) && decide (fold < 10))
  let folds ← skf seed (graphs.map TUGraph.label)
  let p ← getAt folds fold.toNat
  let train ← mapE (getAt graphs) p.1
  let test ← mapE (getAt graphs) p.2
  return (train, test)

/-- `separate_data_given_split` (data/tu_utils.py:214-226); `files n` as in `tuFold`, the `OSError` for missing files is
`runtime` here. -/
def separateGivenSplit (files : Int → Option (List Nat × List Nat)) (graphs : List TUGraph) (fold : Int) :
    Py (List TUGraph × List TUGraph) := do
  pyAssert (decide (-1 ≤ fold) && decide (fold < 10))
  match files (fold + 1) with
  | none => .error .runtime
  | some p => do
    let train ← mapE (getAt graphs) p.1
    let test ← mapE (getAt graphs) p.2
    return (train, test)

end Verif
