import Verif.Model.Matrix

/-!
# Specification vocabulary for walks
-/

namespace Verif

/-- The steps of a path. -/
def moves (path : List Nat) : List (Nat × Nat) := path.zip path.tail

/-- The flow of a simple path through the edge from `q.1` to `q.2`. -/
def flowThrough (path : List Nat) (q : Nat × Nat) : Int :=
  if q ∈ moves path then 1 else if q.swap ∈ moves path then -1 else 0

/-- `B` times the vector `f`, in row `v`. -/
def divergence (B : Mat) (f : List Int) (v : Nat) : Int :=
  ((List.range B.cols).map fun e => B.entry v e * f[e]?.getD 0).sum

/-- 1 or 0. -/
def indicator (p : Prop) [Decidable p] : Int := if p then 1 else 0

/-- Every step of the path is one of the given edges, in one of its two directions. -/
def AlongEdges (edgeList : List (Nat × Nat)) (path : List Nat) : Prop :=
  ∀ u v, (u, v) ∈ moves path → (u, v) ∈ edgeList ∨ (v, u) ∈ edgeList

/-- How often the path passes from `q.1` to `q.2`, less how often it passes back. -/
def netPassages (path : List Nat) (q : Nat × Nat) : Int := (moves path).count q - (moves path).count q.swap

/-- The path never returns at once to where it has just come from. -/
def NoReturn (path : List Nat) : Prop :=
  ∀ (pre : List Nat) (a b c : Nat) (post : List Nat), path = pre ++ a :: b :: c :: post → a ≠ c

end Verif
