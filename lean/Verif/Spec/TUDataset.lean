import Verif.Model.TUDataset
import Verif.Spec.Convert
import Verif.Spec.Loader
import Verif.Spec.RingIso

/-!
# Specification of the TU datasets

Nothing here is used by the model of the code.
-/

namespace Verif

variable {F L : Type}

/-- What `StratifiedKFold` with ten folds guarantees: every fold divides the items in two, and every item is in the
second part of exactly one fold. -/
structure TenFolds (skf : Nat → List L → Py (List (List Nat × List Nat))) : Prop where
  count : ∀ seed labels folds, skf seed labels = .ok folds → folds.length = 10
  divides : ∀ seed labels folds, skf seed labels = .ok folds → ∀ p ∈ folds,
    (p.1 ++ p.2).Perm (List.range labels.length)
  once : ∀ seed labels folds, skf seed labels = .ok folds →
    (folds.flatMap Prod.snd).Perm (List.range labels.length)

/-- A dataset of graphs with one label each and node features of width `w`. -/
structure Labelled (width : F → Nat) (w : Nat) (graphs : List (GraphData F L)) : Prop where
  nonempty : graphs ≠ []
  graph : ∀ G ∈ graphs, ∃ x, G.Ok x ∧ ∀ r ∈ x, width r = w
  label : ∀ G ∈ graphs, ∃ l, G.y = some [l]

/-- A dataset and settings that can be processed: with rings, the maximum dimension is 2, graphs are simple, and edge
features have width `w'`, or there are none. -/
structure Processable (width : F → Nat) (w w' : Nat) (graphs : List (GraphData F L)) (maxDim : Nat)
    (maxRingSize : Option Nat) : Prop extends Labelled width w graphs where
  dim : 1 ≤ maxDim
  rings : ∀ size, maxRingSize = some size → 3 < size ∧ maxDim = 2 ∧ (∀ G ∈ graphs, G.Simple) ∧
    ((w' = w ∧ ∀ G ∈ graphs, G.edgeAttr = none) ∨
      ∀ G ∈ graphs, ∃ a, G.edgeAttr = some a ∧ ∀ r ∈ a, width r = w')

/-- The complex that the dataset makes of one graph. -/
def GraphData.lifted [DecidableEq F] (g : Gudhi) (lib : RingLib) (agg : List F → F) (maxDim : Nat)
    (maxRingSize : Option Nat) (includeDown : Bool) (G : GraphData F L) : Py (Complex F L) :=
  match maxRingSize with
  | some size => ringComplex g lib agg G.x G.edgeIndex G.edgeAttr G.numNodes G.y size includeDown true true
  | none => cliqueComplex g agg G.x G.edgeIndex G.numNodes maxDim G.y includeDown

/-- The graphs are isomorphic, with the features of nodes and edges carried along, and have the same label. -/
def GraphData.Iso (G H : GraphData F L) : Prop :=
  H.y = G.y ∧ ∃ x x', G.x = some x ∧ H.x = some x' ∧
    (⟨G.numNodes, x, G.edgeIndex, G.edgeAttr, G.y⟩ : RGraph F L).Iso ⟨H.numNodes, x', H.edgeIndex, H.edgeAttr, H.y⟩

end Verif
