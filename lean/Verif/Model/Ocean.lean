import Verif.Model.Flow
import Mathlib.Algebra.Order.Ring.Defs
import Mathlib.Data.List.Sort

/-!
# The ocean drifters dataset (data/datasets/ocean_utils.py)

Reading the file, plotting and printing are not modelled: the edge list, the faces, the coordinates and the paths are
given. `faces_from_B2` is in Model/Faces; `color_faces` draws a plot and is left out.
-/

namespace Verif

variable {C K : Type}

/-- What is added to a collection one after the other, if it is not there yet. -/
def firsts {A : Type} [DecidableEq A] (l : List A) : List A :=
  l.foldl (fun acc a => if a ∈ acc then acc else acc ++ [a]) []

/-- The nodes of the networkx graph in the order in which they were added (data/datasets/ocean_utils.py:197-198). -/
def oceanNodes (edgeList : List (Nat × Nat)) : List Nat := firsts (edgeList.flatMap fun e => [e.1, e.2])

/-- `G.edges`: every edge once, beginning with the end that was added first. The order of the edges, which is not
used, is that in which they were added. -/
def oceanEdges (edgeList : List (Nat × Nat)) : List (Nat × Nat) :=
  (firsts (edgeList.map fun e => ordered e.1 e.2)).map fun q =>
    if (oceanNodes edgeList).idxOf q.1 ≤ (oceanNodes edgeList).idxOf q.2 then q else q.swap

/-- The order of pairs. -/
def pairLe (p q : Nat × Nat) : Bool := decide (p.1 < q.1) || (decide (p.1 = q.1) && decide (p.2 ≤ q.2))

/-- The arrays of nodes and edges (data/datasets/ocean_utils.py:200). -/
def oceanArrays (edgeList : List (Nat × Nat)) : List Nat × List (Nat × Nat) :=
  ((oceanNodes edgeList).insertionSort (· ≤ ·),
   ((oceanEdges edgeList).insertionSort fun p q => pairLe p q = true).map fun e => ordered e.1 e.2)

/-- `{tuple(e): i for i, e in enumerate(E)}` (data/datasets/ocean_utils.py:203). -/
def edgeNumbers (E : List (Nat × Nat)) : Dict (Nat × Nat) Nat := E.zipIdx.foldl (fun d p => d.set p.1 p.2) []

/-- The body of the loop of `path_to_flow` for one step (data/datasets/ocean_utils.py:65-73). -/
def addFlow (edgeToIdx : Dict (Nat × Nat) Nat) (f : List Int) (step : Nat × Nat) : Py (List Int) :=
  if step.1 < step.2 then do
    let k ← Dict.get edgeToIdx (step.1, step.2)
    modifyAt f k fun v => v + 1
  else do
    let k ← Dict.get edgeToIdx (step.2, step.1)
    modifyAt f k fun v => v - 1

/-- `path_to_flow` (data/datasets/ocean_utils.py:57-74). -/
def pathToFlow (path : List Nat) (edgeToIdx : Dict (Nat × Nat) Nat) (m : Nat) : Py (List Int) :=
  foldE (addFlow edgeToIdx) (List.replicate m 0) (path.zip path.tail)

/-- The column of one edge of networkx's oriented incidence matrix: nothing for a loop, otherwise -1 in the row of
the first and 1 in the row of the second end; networkx's own error for an unknown node is `runtime` here. -/
def incidenceColumn (V : List Nat) (B1 : Mat) (ei : (Nat × Nat) × Nat) : Py Mat :=
  let (e, i) := ei
  if e.1 = e.2 then .ok B1
  else if V.contains e.1 && V.contains e.2 then do
    let B1 ← B1.set (V.idxOf e.1) i (-1)
    B1.set (V.idxOf e.2) i 1
  else .error .runtime

/-- `nx.incidence_matrix(G, nodelist=V, edgelist=E, oriented=True)`. -/
def incidenceMatrix (V : List Nat) (E : List (Nat × Nat)) : Py Mat :=
  foldE (incidenceColumn V) (Mat.zeros V.length E.length) E.zipIdx

/-- The column of one face (data/datasets/ocean_utils.py:93-98). -/
def faceColumn (edgeToIdx : Dict (Nat × Nat) Nat) (B2 : Mat) (fi : Tri × Nat) : Py Mat := do
  let (face, i) := fi
  let e1 ← Dict.get edgeToIdx (face.1, face.2.1)
  let e2 ← Dict.get edgeToIdx (face.2.1, face.2.2)
  let e3 ← Dict.get edgeToIdx (face.1, face.2.2)
  let B2 ← B2.set e1 i 1
  let B2 ← B2.set e2 i 1
  B2.set e3 i (-1)

/-- `incidence_matrices` (data/datasets/ocean_utils.py:77-99). -/
def incidenceMatrices (V : List Nat) (E : List (Nat × Nat)) (faces : List Tri) (edgeToIdx : Dict (Nat × Nat) Nat) :
    Py (Mat × Mat) := do
  let B1 ← incidenceMatrix V E
  let B2 ← foldE (faceColumn edgeToIdx) (Mat.zeros E.length faces.length) faces.zipIdx
  return (B1, B2)

/-- One step of the inner loop of `strip_paths` (data/datasets/ocean_utils.py:109-118). The list `res` is kept
reversed, its last entry first. -/
def stripStep : List Nat → Nat → List Nat
  | b :: a :: res, node => if node = a then a :: res else node :: b :: a :: res
  | res, node => node :: res

/-- `strip_paths` for one path (data/datasets/ocean_utils.py:107-119). -/
def stripPath (path : List Nat) : List Nat := (path.foldl stripStep []).reverse

/-- The closed paths lose their last vertex (data/datasets/ocean_utils.py:213-218); `path[-1]` of an empty path is
an `IndexError`. -/
def openPath (path : List Nat) : Py (List Nat) :=
  match path.head?, path.getLast? with
  | some a, some b => .ok (if b ≠ a then path else path.dropLast)
  | _, _ => .error .index

/-- The paths that are used (data/datasets/ocean_utils.py:212-218). -/
def oceanPaths (trajectories : List (List Nat)) : Py (List (List Nat)) :=
  mapE openPath ((trajectories.map stripPath).filter fun path => decide (5 ≤ path.length))

/-- `round(num / den)`: Python rounds to the nearest integer, and half-way cases to the even one. The division is
exact here; the code multiplies floats. -/
def pyRound (num den : Nat) : Nat :=
  let q := num / den
  let r := num % den
  if 2 * r < den then q
  else if den < 2 * r then q + 1
  else if q % 2 = 0 then q else q + 1

/-- `[1] * round(n * 0.8) + [0] * round(n * 0.2)` (data/datasets/ocean_utils.py:232). -/
def maskBeforeShuffle (n : Nat) : List Nat :=
  List.replicate (pyRound (4 * n) 5) 1 ++ List.replicate (pyRound n 5) 0

/-- The loop that builds the cochains (data/datasets/ocean_utils.py:247-266): `build i orientation` is the cochain of
path `i`. The labels and the flows are one per path. -/
def splitCochains (n : Nat) (mask : List Nat) (build : Nat → String → Py C) (trainOrient testOrient : String) :
    Py (List C × List C) := do
  pyAssert (decide (n = mask.length))
  foldE (fun (acc : List C × List C) i => do
    let b ← getAt mask i
    if b = 1 then do
      let c ← build i trainOrient
      return (acc.1 ++ [c], acc.2)
    else do
      let c ← build i testOrient
      return (acc.1, acc.2 ++ [c])) ([], []) (List.range n)

/-- `orientation` (data/datasets/ocean_utils.py:146-162) for coordinates of an ordered ring. -/
def orientation [Ring K] [LinearOrder K] (p1 p2 p3 : K × K) : Py Nat :=
  let val := (p2.2 - p1.2) * (p3.1 - p2.1) - (p2.1 - p1.1) * (p3.2 - p2.2)
  if 0 < val then .ok 0
  else if val < 0 then .ok 1
  else .error .value

/-- `extract_label` (data/datasets/ocean_utils.py:165-169) with the computed centre. -/
def extractLabel [Ring K] [LinearOrder K] (path : List Nat) (coords : List (K × K)) (center : K × K) : Py Nat := do
  match path.head?, path.getLast? with
  | some a, some b => do
    let p ← getAt coords a
    let q ← getAt coords b
    orientation center p q
  | _, _ => .error .index

end Verif
