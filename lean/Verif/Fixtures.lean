import Verif.Model.Complex

/-!
# Concrete complexes used by the examples beside the theorems

The house complex of data/dummy_complexes.py:28-63: a square with a triangle on top, five
vertices, six edges, one triangle. Feature rows and labels are natural numbers.
-/

namespace Verif.Fixtures

/-- The vertices of the house (data/dummy_complexes.py:29-36). -/
def houseV : Cochain Nat Nat where
  dim := 0
  upperIndex := some [(0, 1), (1, 0), (0, 3), (3, 0), (1, 2), (2, 1), (2, 3), (3, 2), (2, 4), (4, 2),
    (3, 4), (4, 3)]
  sharedCoboundaries := some [0, 0, 3, 3, 1, 1, 2, 2, 5, 5, 4, 4]
  x := some [1, 2, 3, 4, 5]
  y := some [0, 0, 0, 0, 0]

/-- The edges of the house (data/dummy_complexes.py:38-50). -/
def houseE : Cochain Nat Nat where
  dim := 1
  upperIndex := some [(2, 4), (4, 2), (2, 5), (5, 2), (4, 5), (5, 4)]
  sharedCoboundaries := some [0, 0, 0, 0, 0, 0]
  lowerIndex := some [(0, 1), (1, 0), (0, 3), (3, 0), (1, 2), (2, 1), (1, 5), (5, 1), (2, 3), (3, 2),
    (2, 4), (4, 2), (2, 5), (5, 2), (3, 4), (4, 3), (4, 5), (5, 4)]
  sharedBoundaries := some [1, 1, 0, 0, 2, 2, 2, 2, 3, 3, 3, 3, 2, 2, 3, 3, 4, 4]
  boundaryIndex := some [(0, 0), (1, 0), (1, 1), (2, 1), (2, 2), (3, 2), (0, 3), (3, 3), (3, 4), (4, 4),
    (2, 5), (4, 5)]
  x := some [1, 2, 3, 4, 5, 6]
  y := some [2, 2, 2, 2, 2, 2]

/-- The triangle of the house (data/dummy_complexes.py:52-61). -/
def houseT : Cochain Nat Nat where
  dim := 2
  boundaryIndex := some [(2, 0), (4, 0), (5, 0)]
  x := some [1]
  y := some [2]

/-- Two vertices joined by an edge, and an isolated one. -/
def segV : Cochain Nat Nat where
  dim := 0
  upperIndex := some [(0, 1), (1, 0)]
  sharedCoboundaries := some [0, 0]
  x := some [7, 8, 9]
  y := some [1, 1, 1]

/-- The edge of the segment. -/
def segE : Cochain Nat Nat where
  dim := 1
  boundaryIndex := some [(0, 0), (1, 0)]
  x := some [15]
  y := some [3]

/-- Two isolated vertices. -/
def dotsV : Cochain Nat Nat where
  dim := 0
  x := some [20, 21]
  y := some [1, 2]

/-- The house as the constructor leaves it, with the recorded numbers of neighbours. -/
def house : Complex Nat Nat where
  dimension := 2
  cochains := [{ houseV with numCellsUpAttr := some (some 6) },
    { houseE with numCellsUpAttr := some (some 1), numCellsDownAttr := some (some 5) },
    { houseT with numCellsDownAttr := some (some 6) }]
  y := some [1]

/-- The segment as the constructor leaves it. -/
def seg : Complex Nat Nat where
  dimension := 1
  cochains := [{ segV with numCellsUpAttr := some (some 1) },
    { segE with numCellsDownAttr := some (some 3) }]
  y := some [0]

/-- The isolated vertices as the constructor leaves them. -/
def dots : Complex Nat Nat where
  dimension := 0
  cochains := [dotsV]
  y := some [5]

example : Complex.new [houseV, houseE, houseT] (some [1]) none = .ok house := by decide
example : Complex.new [segV, segE] (some [0]) none = .ok seg := by decide
example : Complex.new [dotsV] (some [5]) none = .ok dots := by decide

end Verif.Fixtures
