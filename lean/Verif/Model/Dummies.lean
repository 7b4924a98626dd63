import Verif.Model.Storage
import Verif.Model.Dataset
import Verif.Model.Loader
import Verif.Model.ToGraph
import Verif.Model.Perm
import Verif.Model.Rings
import Verif.Model.Experiment

/-!
# The hand-made complexes and what is tested with them

data/dummy_complexes.py, data/datasets/dummy.py, mp/test_models.py:12-74, 138-182, mp/test_permutation.py
-/

namespace Verif

variable {F L : Type}

/-! ### The complexes

Every feature row has one number, `num n` is the row `[n]`. Tensors of indices are the lists of their columns. -/

/-- `get_house_complex` (data/dummy_complexes.py:45-102). -/
def houseComplex (num : Nat → F) : Py (Complex F Int) := do
  let v : Cochain F Int ← Cochain.mk? {
    dim := 0
    x := some ([1, 2, 3, 4, 5].map num)
    upperIndex := some [(0, 1), (1, 0), (0, 3), (3, 0), (1, 2), (2, 1), (2, 3), (3, 2), (2, 4), (4, 2), (3, 4),
      (4, 3)]
    sharedCoboundaries := some [0, 0, 3, 3, 1, 1, 2, 2, 5, 5, 4, 4]
    y := some [0, 0, 0, 0, 0] }
  let e : Cochain F Int ← Cochain.mk? {
    dim := 1
    x := some ([1, 2, 3, 4, 5, 6].map num)
    upperIndex := some [(2, 4), (4, 2), (2, 5), (5, 2), (4, 5), (5, 4)]
    sharedCoboundaries := some [0, 0, 0, 0, 0, 0]
    lowerIndex := some [(0, 1), (1, 0), (0, 3), (3, 0), (1, 2), (2, 1), (1, 5), (5, 1), (2, 3), (3, 2), (2, 4),
      (4, 2), (2, 5), (5, 2), (3, 4), (4, 3), (4, 5), (5, 4)]
    sharedBoundaries := some [1, 1, 0, 0, 2, 2, 2, 2, 3, 3, 3, 3, 2, 2, 3, 3, 4, 4]
    boundaryIndex := some [(0, 0), (1, 0), (1, 1), (2, 1), (2, 2), (3, 2), (0, 3), (3, 3), (3, 4), (4, 4), (2, 5),
      (4, 5)]
    y := some [1, 1, 1, 1, 1, 1] }
  let t : Cochain F Int ← Cochain.mk? {
    dim := 2
    x := some ([1].map num)
    boundaryIndex := some [(2, 0), (4, 0), (5, 0)]
    y := some [2] }
  Complex.new [v, e, t] (some [5]) none

/-- `get_bridged_complex` (data/dummy_complexes.py:105-173). -/
def bridgedComplex (num : Nat → F) : Py (Complex F Int) := do
  let v : Cochain F Int ← Cochain.mk? {
    dim := 0
    x := some ([1, 2, 3, 4, 5].map num)
    upperIndex := some [(0, 1), (1, 0), (0, 3), (3, 0), (1, 2), (2, 1), (1, 4), (4, 1), (2, 3), (3, 2), (3, 4),
      (4, 3)]
    sharedCoboundaries := some [0, 0, 3, 3, 1, 1, 5, 5, 2, 2, 4, 4]
    y := some [0, 0, 0, 0, 0] }
  let e : Cochain F Int ← Cochain.mk? {
    dim := 1
    x := some ([1, 2, 3, 4, 5, 6].map num)
    upperIndex := some [(0, 1), (1, 0), (0, 2), (2, 0), (0, 3), (3, 0), (0, 3), (3, 0), (0, 4), (4, 0), (0, 5),
      (5, 0), (1, 2), (2, 1), (1, 2), (2, 1), (1, 3), (3, 1), (1, 4), (4, 1), (1, 5), (5, 1), (2, 3), (3, 2),
      (2, 4), (4, 2), (2, 5), (5, 2), (3, 4), (4, 3), (3, 5), (5, 3), (4, 5), (5, 4), (4, 5), (5, 4)]
    sharedCoboundaries := some [2, 2, 2, 2, 0, 0, 2, 2, 0, 0, 0, 0, 1, 1, 2, 2, 2, 2, 1, 1, 1, 1, 2, 2, 1, 1, 1, 1,
      0, 0, 0, 0, 0, 0, 1, 1]
    lowerIndex := some [(0, 1), (1, 0), (0, 3), (3, 0), (0, 5), (5, 0), (1, 2), (2, 1), (1, 5), (5, 1), (2, 3),
      (3, 2), (2, 4), (4, 2), (3, 4), (4, 3), (4, 5), (5, 4)]
    sharedBoundaries := some [1, 1, 0, 0, 1, 1, 2, 2, 1, 1, 3, 3, 3, 3, 3, 3, 4, 4]
    boundaryIndex := some [(0, 0), (1, 0), (1, 1), (2, 1), (2, 2), (3, 2), (0, 3), (3, 3), (3, 4), (4, 4), (1, 5),
      (4, 5)]
    y := some [1, 1, 1, 1, 1, 1] }
  let t : Cochain F Int ← Cochain.mk? {
    dim := 2
    x := some ([1, 2, 3].map num)
    lowerIndex := some [(0, 1), (1, 0), (0, 1), (1, 0), (0, 2), (2, 0), (0, 2), (2, 0), (1, 2), (2, 1), (1, 2),
      (2, 1)]
    sharedBoundaries := some [4, 4, 5, 5, 0, 0, 3, 3, 1, 1, 2, 2]
    boundaryIndex := some [(0, 0), (3, 0), (4, 0), (5, 0), (1, 1), (2, 1), (4, 1), (5, 1), (0, 2), (1, 2), (2, 2),
      (3, 2)]
    y := some [2, 2, 2] }
  Complex.new [v, e, t] (some [5]) none

/-- `get_fullstop_complex` (data/dummy_complexes.py:176-188). -/
def fullstopComplex (num : Nat → F) : Py (Complex F Int) := do
  let v : Cochain F Int ← Cochain.mk? {
    dim := 0
    x := some ([1].map num)
    y := some [0] }
  Complex.new [v] (some [1]) none

/-- `get_colon_complex` (data/dummy_complexes.py:191-205). -/
def colonComplex (num : Nat → F) : Py (Complex F Int) := do
  let v : Cochain F Int ← Cochain.mk? {
    dim := 0
    x := some ([1, 2].map num)
    y := some [0, 0] }
  Complex.new [v] (some [2]) none

/-- `get_square_complex` (data/dummy_complexes.py:208-246). -/
def squareComplex (num : Nat → F) : Py (Complex F Int) := do
  let v : Cochain F Int ← Cochain.mk? {
    dim := 0
    x := some ([1, 2, 3, 4].map num)
    upperIndex := some [(0, 1), (1, 0), (0, 3), (3, 0), (1, 2), (2, 1), (2, 3), (3, 2)]
    sharedCoboundaries := some [0, 0, 3, 3, 1, 1, 2, 2]
    y := some [0, 0, 0, 0] }
  let e : Cochain F Int ← Cochain.mk? {
    dim := 1
    x := some ([1, 2, 3, 4].map num)
    lowerIndex := some [(0, 1), (1, 0), (0, 3), (3, 0), (1, 2), (2, 1), (2, 3), (3, 2)]
    sharedBoundaries := some [1, 1, 0, 0, 2, 2, 3, 3]
    boundaryIndex := some [(0, 0), (1, 0), (1, 1), (2, 1), (2, 2), (3, 2), (0, 3), (3, 3)]
    y := some [1, 1, 1, 1] }
  Complex.new [v, e] (some [4]) none

/-- `get_square_dot_complex` (data/dummy_complexes.py:249-287). -/
def squareDotComplex (num : Nat → F) : Py (Complex F Int) := do
  let v : Cochain F Int ← Cochain.mk? {
    dim := 0
    x := some ([1, 2, 3, 4, 5].map num)
    upperIndex := some [(0, 1), (1, 0), (0, 3), (3, 0), (1, 2), (2, 1), (2, 3), (3, 2)]
    sharedCoboundaries := some [0, 0, 3, 3, 1, 1, 2, 2]
    y := some [0, 0, 0, 0, 0] }
  let e : Cochain F Int ← Cochain.mk? {
    dim := 1
    x := some ([1, 2, 3, 4].map num)
    lowerIndex := some [(0, 1), (1, 0), (0, 3), (3, 0), (1, 2), (2, 1), (2, 3), (3, 2)]
    sharedBoundaries := some [1, 1, 0, 0, 2, 2, 3, 3]
    boundaryIndex := some [(0, 0), (1, 0), (1, 1), (2, 1), (2, 2), (3, 2), (0, 3), (3, 3)]
    y := some [1, 1, 1, 1] }
  Complex.new [v, e] (some [5]) none

/-- `get_kite_complex` (data/dummy_complexes.py:290-350). -/
def kiteComplex (num : Nat → F) : Py (Complex F Int) := do
  let v : Cochain F Int ← Cochain.mk? {
    dim := 0
    x := some ([1, 2, 3, 4, 5].map num)
    upperIndex := some [(0, 1), (1, 0), (0, 2), (2, 0), (1, 2), (2, 1), (1, 3), (3, 1), (2, 3), (3, 2), (3, 4),
      (4, 3)]
    sharedCoboundaries := some [0, 0, 2, 2, 1, 1, 3, 3, 4, 4, 5, 5]
    y := some [0, 0, 0, 0, 0] }
  let e : Cochain F Int ← Cochain.mk? {
    dim := 1
    x := some ([1, 2, 3, 4, 5, 6].map num)
    upperIndex := some [(0, 1), (1, 0), (0, 2), (2, 0), (1, 2), (2, 1), (1, 3), (3, 1), (1, 4), (4, 1), (3, 4),
      (4, 3)]
    sharedCoboundaries := some [0, 0, 0, 0, 0, 0, 1, 1, 1, 1, 1, 1]
    lowerIndex := some [(0, 1), (1, 0), (0, 3), (3, 0), (1, 3), (3, 1), (0, 2), (2, 0), (1, 2), (2, 1), (2, 4),
      (4, 2), (1, 4), (4, 1), (3, 4), (4, 3), (3, 5), (5, 3), (4, 5), (5, 4)]
    sharedBoundaries := some [1, 1, 1, 1, 1, 1, 0, 0, 2, 2, 2, 2, 2, 2, 3, 3, 3, 3, 3, 3]
    boundaryIndex := some [(0, 0), (1, 0), (1, 1), (2, 1), (0, 2), (2, 2), (1, 3), (3, 3), (2, 4), (3, 4), (3, 5),
      (4, 5)]
    y := some [1, 1, 1, 1, 1, 1] }
  let t : Cochain F Int ← Cochain.mk? {
    dim := 2
    x := some ([1, 2].map num)
    lowerIndex := some [(0, 1), (1, 0)]
    sharedBoundaries := some [1, 1]
    boundaryIndex := some [(0, 0), (1, 0), (2, 0), (1, 1), (3, 1), (4, 1)]
    y := some [2, 2] }
  Complex.new [v, e, t] (some [5]) none

/-- `get_pyramid_complex` (data/dummy_complexes.py:353-455). -/
def pyramidComplex (num : Nat → F) : Py (Complex F Int) := do
  let v : Cochain F Int ← Cochain.mk? {
    dim := 0
    x := some ([1, 2, 3, 4].map num)
    upperIndex := some [(0, 1), (1, 0), (0, 2), (2, 0), (0, 3), (3, 0), (1, 2), (2, 1), (1, 3), (3, 1), (2, 3),
      (3, 2)]
    sharedCoboundaries := some [0, 0, 2, 2, 5, 5, 1, 1, 3, 3, 4, 4]
    y := some [3, 3, 3, 3] }
  let e : Cochain F Int ← Cochain.mk? {
    dim := 1
    x := some ([1, 2, 3, 4, 5, 6].map num)
    upperIndex := some [(0, 1), (1, 0), (0, 2), (2, 0), (1, 2), (2, 1), (0, 5), (5, 0), (0, 3), (3, 0), (3, 5),
      (5, 3), (1, 3), (3, 1), (1, 4), (4, 1), (3, 4), (4, 3), (2, 4), (4, 2), (2, 5), (5, 2), (4, 5), (5, 4)]
    sharedCoboundaries := some [0, 0, 0, 0, 0, 0, 1, 1, 1, 1, 1, 1, 2, 2, 2, 2, 2, 2, 3, 3, 3, 3, 3, 3]
    lowerIndex := some [(0, 1), (1, 0), (0, 2), (2, 0), (0, 3), (3, 0), (0, 5), (5, 0), (1, 2), (2, 1), (1, 3),
      (3, 1), (1, 4), (4, 1), (2, 4), (4, 2), (2, 5), (5, 2), (3, 4), (4, 3), (3, 5), (5, 3), (4, 5), (5, 4)]
    sharedBoundaries := some [1, 1, 0, 0, 1, 1, 0, 0, 2, 2, 1, 1, 2, 2, 2, 2, 0, 0, 3, 3, 3, 3, 3, 3]
    boundaryIndex := some [(0, 0), (1, 0), (1, 1), (2, 1), (0, 2), (2, 2), (1, 3), (3, 3), (2, 4), (3, 4), (0, 5),
      (3, 5)]
    y := some [1, 1, 1, 1, 1, 1] }
  let t : Cochain F Int ← Cochain.mk? {
    dim := 2
    x := some ([1, 2, 3, 4].map num)
    upperIndex := some [(0, 1), (1, 0), (0, 2), (2, 0), (1, 2), (2, 1), (0, 3), (3, 0), (1, 3), (3, 1), (2, 3),
      (3, 2)]
    sharedCoboundaries := some [0, 0, 0, 0, 0, 0, 0, 0, 0, 0, 0, 0]
    lowerIndex := some [(0, 1), (1, 0), (0, 2), (2, 0), (0, 3), (3, 0), (1, 2), (2, 1), (1, 3), (3, 1), (2, 3),
      (3, 2)]
    sharedBoundaries := some [0, 0, 1, 1, 2, 2, 3, 3, 5, 5, 4, 4]
    boundaryIndex := some [(0, 0), (1, 0), (2, 0), (0, 1), (3, 1), (5, 1), (1, 2), (3, 2), (4, 2), (2, 3), (4, 3),
      (5, 3)]
    y := some [2, 2, 2, 2] }
  let p : Cochain F Int ← Cochain.mk? {
    dim := 3
    x := some ([1].map num)
    boundaryIndex := some [(0, 0), (1, 0), (2, 0), (3, 0)]
    y := some [3] }
  Complex.new [v, e, t, p] (some [4]) none

/-- `get_filled_square_complex` (data/dummy_complexes.py:458-508). -/
def filledSquareComplex (num : Nat → F) : Py (Complex F Int) := do
  let v : Cochain F Int ← Cochain.mk? {
    dim := 0
    x := some ([1, 2, 3, 4].map num)
    upperIndex := some [(0, 1), (1, 0), (0, 3), (3, 0), (1, 2), (2, 1), (2, 3), (3, 2)]
    sharedCoboundaries := some [0, 0, 3, 3, 1, 1, 2, 2]
    y := some [0, 0, 0, 0] }
  let e : Cochain F Int ← Cochain.mk? {
    dim := 1
    x := some ([1, 2, 3, 4].map num)
    upperIndex := some [(0, 1), (1, 0), (0, 2), (2, 0), (0, 3), (3, 0), (1, 2), (2, 1), (1, 3), (3, 1), (2, 3),
      (3, 2)]
    sharedCoboundaries := some [0, 0, 0, 0, 0, 0, 0, 0, 0, 0, 0, 0]
    lowerIndex := some [(0, 1), (1, 0), (0, 3), (3, 0), (1, 2), (2, 1), (2, 3), (3, 2)]
    sharedBoundaries := some [1, 1, 0, 0, 2, 2, 3, 3]
    boundaryIndex := some [(0, 0), (1, 0), (1, 1), (2, 1), (2, 2), (3, 2), (0, 3), (3, 3)]
    y := some [1, 1, 1, 1] }
  let t : Cochain F Int ← Cochain.mk? {
    dim := 2
    x := some ([1].map num)
    boundaryIndex := some [(0, 0), (1, 0), (2, 0), (3, 0)]
    y := some [2] }
  Complex.new [v, e, t] (some [4]) none

/-- `get_molecular_complex` (data/dummy_complexes.py:511-576). -/
def molecularComplex (num : Nat → F) : Py (Complex F Int) := do
  let v : Cochain F Int ← Cochain.mk? {
    dim := 0
    x := some ([1, 2, 3, 4, 5, 6, 7, 8].map num)
    upperIndex := some [(0, 1), (1, 0), (0, 3), (3, 0), (1, 2), (2, 1), (1, 6), (6, 1), (2, 3), (3, 2), (2, 4),
      (4, 2), (4, 5), (5, 4), (5, 6), (6, 5), (6, 7), (7, 6)]
    sharedCoboundaries := some [0, 0, 3, 3, 1, 1, 7, 7, 2, 2, 4, 4, 5, 5, 6, 6, 8, 8]
    y := some [0, 0, 0, 0, 0, 0, 0, 0] }
  let e : Cochain F Int ← Cochain.mk? {
    dim := 1
    x := some ([1, 2, 3, 4, 5, 6, 7, 8, 9].map num)
    upperIndex := some [(0, 1), (1, 0), (0, 2), (2, 0), (0, 3), (3, 0), (1, 2), (2, 1), (1, 3), (3, 1), (2, 3),
      (3, 2), (1, 4), (4, 1), (1, 5), (5, 1), (1, 6), (6, 1), (1, 7), (7, 1), (4, 5), (5, 4), (4, 6), (6, 4),
      (4, 7), (7, 4), (5, 6), (6, 5), (5, 7), (7, 5), (6, 7), (7, 6)]
    sharedCoboundaries := some [0, 0, 0, 0, 0, 0, 0, 0, 0, 0, 0, 0, 1, 1, 1, 1, 1, 1, 1, 1, 1, 1, 1, 1, 1, 1, 1, 1,
      1, 1, 1, 1]
    lowerIndex := some [(0, 1), (1, 0), (0, 3), (3, 0), (1, 2), (2, 1), (2, 3), (3, 2), (1, 4), (4, 1), (2, 4),
      (4, 2), (4, 5), (5, 4), (5, 6), (6, 5), (6, 7), (7, 6), (6, 8), (8, 6), (7, 8), (8, 7), (0, 7), (7, 0),
      (1, 7), (7, 1)]
    sharedBoundaries := some [1, 1, 0, 0, 2, 2, 3, 3, 2, 2, 2, 2, 4, 4, 5, 5, 6, 6, 6, 6, 6, 6, 1, 1, 1, 1]
    boundaryIndex := some [(0, 0), (1, 0), (1, 1), (2, 1), (2, 2), (3, 2), (0, 3), (3, 3), (1, 7), (6, 7), (2, 4),
      (4, 4), (4, 5), (5, 5), (5, 6), (6, 6), (6, 8), (7, 8)]
    y := some [1, 1, 1, 1, 1, 1, 1, 1, 1] }
  let t : Cochain F Int ← Cochain.mk? {
    dim := 2
    x := some ([1, 2].map num)
    lowerIndex := some [(0, 1), (1, 0)]
    sharedBoundaries := some [1, 1]
    boundaryIndex := some [(0, 0), (1, 0), (2, 0), (3, 0), (1, 1), (4, 1), (5, 1), (6, 1), (7, 1)]
    y := some [2, 2] }
  Complex.new [v, e, t] (some [8]) none

/-- `get_testing_complex_list` (data/dummy_complexes.py:28-35). -/
def testingComplexes (num : Nat → F) : Py (List (Complex F Int)) :=
  mapE (fun build => build num) [fullstopComplex, pyramidComplex, houseComplex, kiteComplex, squareComplex,
    squareDotComplex, squareComplex, fullstopComplex, houseComplex,
    kiteComplex, pyramidComplex, bridgedComplex, squareDotComplex, colonComplex,
    filledSquareComplex, molecularComplex, fullstopComplex, colonComplex,
    bridgedComplex, colonComplex, fullstopComplex, fullstopComplex, colonComplex]

/-- `get_mol_testing_complex_list` (data/dummy_complexes.py:38-43). -/
def molTestingComplexes (num : Nat → F) : Py (List (Complex F Int)) :=
  mapE (fun build => build num) [houseComplex, kiteComplex, squareComplex, fullstopComplex, bridgedComplex,
    squareDotComplex, squareComplex, filledSquareComplex, colonComplex, bridgedComplex,
    kiteComplex, squareDotComplex, colonComplex, molecularComplex, bridgedComplex,
    filledSquareComplex, molecularComplex, fullstopComplex, colonComplex]

/-! ### The datasets -/

/-- `complex.cochains[2].x = None` if there is a cochain of dimension 2 (data/datasets/dummy.py:83-84). -/
def dropTwoFeatures (comp : Complex F L) : Complex F L :=
  { comp with cochains := comp.cochains.modify 2 fun c => { c with x := none } }

/-- `complex.y = torch.LongTensor([c % 2])` (data/datasets/dummy.py:37, 85). -/
def alternateLabels (cs : List (Complex F Int)) : List (Complex F Int) :=
  cs.zipIdx.map fun p => { p.1 with y := some [((p.2 % 2 : Nat) : Int)] }

/-- `DummyDataset.factory` (data/datasets/dummy.py:33-38). -/
def dummyFactory (num : Nat → F) : Py (List (Complex F Int)) := alternateLabels <$> testingComplexes num

/-- `DummyMolecularDataset.factory` (data/datasets/dummy.py:78-86). -/
def dummyMolFactory (num : Nat → F) (remove2feats : Bool) : Py (List (Complex F Int)) := do
  let cs ← molTestingComplexes num
  return alternateLabels (if remove2feats then cs.map dropTwoFeatures else cs)

/-- `processed_paths` of `DummyDataset` (data/datasets/dummy.py:12-14, 19-22); init method `None`. -/
def dummyPaths : List DiskPath := [(baseFolder false 3 "None", "DUMMY_complex_list.pt")]

/-- `DummyDataset.process` (data/datasets/dummy.py:40-43): what is written to the file. -/
def dummyProcess (num : Nat → F) : Py (Storage F Int) := do
  let cs ← dummyFactory num
  collate cs 3

/-- `DummyMolecularDataset.process` (data/datasets/dummy.py:88-91): what is written to the file. -/
def dummyMolProcess (num : Nat → F) (remove2feats : Bool) : Py (Storage F Int) := do
  let cs ← dummyMolFactory num remove2feats
  collate cs 2

/-- The three splits (data/datasets/dummy.py:15-17, 55-57): all of them are the whole dataset. `order` is as in
`Storage.len`. -/
def dummySplits (order : List (List Nat) → List (List Nat)) (st : Storage F L) : Splits where
  train := some (List.range (st.len order))
  valid := some (List.range (st.len order))
  test := some (List.range (st.len order))

/-! ### The tests -/

/-- The tests of batching (mp/test_models.py:12-45, 48-74, 138-182): the predictions batch by batch, one after the other, are
those for the complexes alone. A batch size of 0 is a `ValueError` of the loader.
Simplified: `torch.allclose` with its tolerance is equality, since the networks are evaluated without rounding; it covers the
comparison of the sizes (line 43). The third test compares the intermediate results as well, the model only the predictions. -/
def batchingTest [DecidableEq F] (forward : Complex F L → Py (List F)) (batchSize maxDim : Nat) (cs : List (Complex F L)) :
    Py Unit :=
  if batchSize = 0 then .error .value
  else do
    let batches ← mapE (fun part => fromComplexList part maxDim) (chunks batchSize cs)
    let batched ← infer forward batches
    let single ← mapE (fun comp => fromComplexList [comp] maxDim >>= forward) cs
    let preds ← catRows single
    pyAssert (decide (preds = batched))

/-- `convert_to_graph` and `graph.edge_attr = None` (mp/test_permutation.py:13-15). A graph without node features has no
`x.size(0)`, an `AttributeError` in `permute_graph` (data/perm_utils.py:13). -/
def bareGraph (comp : Complex F L) : Py (PGraph F L) := do
  let graph ← convertToGraph comp
  match graph.x with
  | none => .error .attribute
  | some x => return ⟨x, graph.y, graph.edgeIndex, false⟩

/-- `compute_ring_2complex` as the test calls it (mp/test_permutation.py:17-19, 33-34): no edge features, no labels, rings of
at most 7 nodes, features of edges and rings from their nodes. -/
def liftBare [DecidableEq F] (g : Gudhi) (lib : RingLib) (agg : List F → F) (graph : PGraph F L) : Py (Complex F L) :=
  ringComplex g lib agg (some graph.x) graph.edges none graph.x.length none 7 false true true

/-- The prediction for one complex at its own dimension (mp/test_permutation.py:26, 35). -/
def embedAlone (forward : Complex F L → Py (List F)) (comp : Complex F L) : Py (List F) :=
  fromComplexList [comp] comp.dimension >>= forward

/-- The permutation test (mp/test_permutation.py:9-36): `perms` are the matrices of each graph (lines 30). The features are
aggregated by `agg`, the sum. Simplified: `torch.allclose` is equality. -/
def permutationTest [DecidableEq F] [AddCommGroup F] [AddCommGroup L] (coo : CooLib) (g : Gudhi) (lib : RingLib)
    (agg : List F → F) (forward : Complex F L → Py (List F)) (perms : List (List Mat)) (cs : List (Complex F L)) : Py Unit := do
  let graphs ← mapE bareGraph cs
  let comps ← mapE (liftBare g lib agg) graphs
  let embeddings ← mapE (embedAlone forward) comps
  let _ ← mapE (fun (p : (List F × PGraph F L) × List Mat) => mapE (fun P => do
      let permuted ← permuteGraph coo p.1.2 P
      let comp ← liftBare g lib agg permuted
      let emb ← embedAlone forward comp
      pyAssert (decide (p.1.1 = emb))) p.2) ((embeddings.zip graphs).zip perms)
  return ()

end Verif
