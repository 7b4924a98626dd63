import Verif.Model.Molecules
import Verif.Spec.EmbedBatch
import Verif.Spec.TUDataset

/-!
# Specification of the datasets of the embedding networks

Nothing here is used by the model of the code.
-/

namespace Verif

section
variable {F L : Type}

/-- A graph with node features of width `w`, edge features of width `w'`, each edge in both directions with the same
features, and one label. -/
structure Molecule (width : F → Nat) (w w' : Nat) (G : GraphData F L) : Prop where
  nodes : ∃ x, G.Ok x ∧ ∀ r ∈ x, width r = w
  simple : G.Simple
  bonds : ∃ a, G.edgeAttr = some a ∧ ∀ r ∈ a, width r = w'
  label : ∃ l, G.y = some [l]

/-- The ring complex of one graph: edges with features, rings without. -/
def GraphData.ringLift [DecidableEq F] (g : Gudhi) (lib : RingLib) (agg : List F → F) (maxRingSize : Nat)
    (includeDown : Bool) (G : GraphData F L) : Py (Complex F L) :=
  ringComplex g lib agg G.x G.edgeIndex G.edgeAttr G.numNodes G.y maxRingSize includeDown true false

/-- The dataset stores, in order, the complexes that the graphs lift to one by one, each with the label of its graph;
nothing has been read yet. -/
def Dataset.HoldsLifts (ds : Dataset F L) (lift : GraphData F L → Py (Complex F L)) (graphs : List (GraphData F L)) :
    Prop :=
  ∃ comps, List.Forall₂ (fun (G : GraphData F L) c => lift G = .ok c ∧ c.y = G.y) graphs comps ∧
    collate comps 2 = .ok ds.storage ∧ ds.cache = none

/-- The graph with every row of features replaced. -/
def GraphData.mapRows (f : F → F) (G : GraphData F L) : GraphData F L :=
  ⟨G.x.map (List.map f), G.edgeIndex, G.edgeAttr.map (List.map f), G.numNodes, G.y⟩

/-- The graph without its loops, with the same row on all nodes and edges. -/
def GraphData.constant (row : F) (G : GraphData F L) : GraphData F L :=
  ⟨some (List.replicate G.numNodes row), G.edgeIndex.filter fun e => e.1 ≠ e.2,
    some (List.replicate (G.edgeIndex.filter fun e => e.1 ≠ e.2).length row), G.numNodes, G.y⟩

/-- A graph of CSL before features are added: simple but for loops, one label. -/
structure Unfeatured (G : GraphData F L) : Prop where
  pos : 0 < G.numNodes
  edges : EdgesIn G.edgeIndex G.numNodes
  nodup : G.edgeIndex.Nodup
  both : ∀ e ∈ G.edgeIndex, e.swap ∈ G.edgeIndex
  label : ∃ l, G.y = some [l]
  bare : G.x = none ∧ G.edgeAttr = none

end

/-- The networks with an embedding layer, with that layer, for batches of dimension at most `mB`: EmbedSparseCIN,
EmbedCINpp, EmbedSparseCINNoRings, EmbedGIN. -/
inductive EmbedNetwork (𝕜 R L : Type) [Field 𝕜] [AddCommGroup R] [Module 𝕜 R] (mB : Nat) :
    EmbedInit R → (Complex R L → Py (List R)) → Prop
  | sparse (net : EmbedNet R (SparseLevel 𝕜 R)) (h : net.net.Fits) (hm : min 2 mB ≤ net.net.maxDim) :
      EmbedNetwork 𝕜 R L mB net.init (net.forward 𝕜 SparseLevel.forward)
  | pp (net : EmbedNet R (PPLevel 𝕜 R)) (h : net.net.Fits) (hm : min 2 mB ≤ net.net.maxDim) :
      EmbedNetwork 𝕜 R L mB net.init (net.forward 𝕜 PPLevel.forward)
  | noRings (net : EmbedNet R (SparseLevel 𝕜 R)) (h : net.flat.net.Fits) (h1 : 1 ≤ mB) :
      EmbedNetwork 𝕜 R L mB net.init (net.forwardNoRings 𝕜 SparseLevel.forward)
  | gin (net : EmbedGIN 𝕜 R) (h : net.convs ≠ []) (hr : net.readout = "sum" ∨ net.readout = "mean") (h1 : 1 ≤ mB) :
      EmbedNetwork 𝕜 R L mB net.init net.forward

end Verif
