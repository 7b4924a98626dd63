import Verif.Model.Dummies
import Verif.Model.ToGraph

/-!
# The tests that only convert

data/test_utils.py:626-633
-/

namespace Verif

variable {F : Type}

/-- `list(map(convert_to_graph, get_testing_complex_list()))` (data/test_utils.py:627, 632). -/
def testingGraphs (num : Nat → F) : Py (List (GraphData F Int)) := testingComplexes num >>= mapE convertToGraph

/-- `test_simp_complex_conversion_completes` (data/test_utils.py:626-628). -/
def simpConversionTest (g : Gudhi) (agg : List F → F) (width : F → Nat) (num : Nat → F) : Py Unit := do
  let graphs ← testingGraphs num
  let _ ← convertWithGudhi g agg width graphs 3
  return ()

/-- `test_cell_complex_conversion_completes` (data/test_utils.py:631-633). -/
def cellConversionTest [DecidableEq F] (g : Gudhi) (lib : RingLib) (agg : List F → F) (width : F → Nat)
    (num : Nat → F) : Py Unit := do
  let graphs ← testingGraphs num
  let _ ← convertWithRings g lib agg width graphs (initRings := true)
  return ()

end Verif
