import Verif.Spec.Lower
import Verif.Spec.Runs

/-!
# Specification of cell complexes that fit together
-/

namespace Verif

variable {R L : Type}

/-- Every edge has two ends. -/
def View.TwoEnds (v : View R) : Prop :=
  ∀ e, e < (v.X 1).length → ∃ u w, u ≠ w ∧ ∀ z, (z, e) ∈ v.bnd 1 ↔ z = u ∨ z = w

/-- The boundary of every cell is closed: a face of one of its faces is a face of exactly two of them. -/
def View.Closed (v : View R) : Prop :=
  ∀ d k u, (∃ b, (b, k) ∈ v.bnd (d + 2) ∧ (u, b) ∈ v.bnd (d + 1)) →
    ∃ b b', b ≠ b' ∧ ∀ a, (a, k) ∈ v.bnd (d + 2) ∧ (u, a) ∈ v.bnd (d + 1) ↔ a = b ∨ a = b'

/-- A cell complex with features: what is stored about the cells is consistent, every dimension has cells, neighbours are the
cells that share a face or a coface, cells that are no vertices have faces, edges have two ends, and boundaries are closed. -/
structure Complex.Sound (comp : Complex R L) : Prop where
  ready : comp.Ready
  full : ∀ d, d ≤ comp.dimension → 0 < comp.cellsIn d
  faces : comp.view.FromFaces
  covered : ∀ d c, c < comp.cellsIn (d + 1) → ∃ b, (b, c) ∈ comp.view.bnd (d + 1)
  ends : comp.view.TwoEnds
  closed : comp.view.Closed

/-- What is said about a hand-made complex: it is a cell complex, cell `i` of every dimension has the feature `i + 1`, and
its label is its number of vertices. -/
structure Handmade (num : Nat → R) (comp : Complex R Int) : Prop where
  sound : comp.Sound
  rows : ∀ d, d ≤ comp.dimension → comp.attr d Cochain.x = some ((List.range (comp.cellsIn d)).map fun i => num (i + 1))
  label : comp.y = some [(comp.cellsIn 0 : Int)]

end Verif
