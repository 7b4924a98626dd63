import Verif.Spec.EmbedBatch
import Verif.Spec.RingIso
import Mathlib.Algebra.BigOperators.Group.Finset.Basic
import Mathlib.Data.Finset.Powerset
import Mathlib.Data.Finset.Sort

/-!
# Specification of the networks on graphs

What the networks compute for a graph, written with vertex sets: no numbering of cells, no index columns,
no batch. A cell is the set of its vertices.
-/

namespace Verif

variable {𝕜 R L : Type}

/-- The cells of each dimension, as vertex sets. -/
abbrev Cells := Nat → Finset (Finset Nat)

/-- The vertices, the edges and the induced cycles of at most `maxK` vertices of a graph. -/
noncomputable def ringSets (edges : List (Nat × Nat)) (size maxK : Nat) : Cells
  | 0 => (Finset.range size).image fun v => {v}
  | 1 => open Classical in
    (Finset.range size).powerset.filter fun s => ∃ u v, Joined edges u v ∧ s = {u, v}
  | 2 => open Classical in
    (Finset.range size).powerset.filter fun s => ∃ r, IsRing edges r ∧ r.length ≤ maxK ∧ s = r.toFinset
  | _ => ∅

/-- The cliques of `d + 1` vertices of a graph, for `d` at most `k` (and at most 1 for `k = 0`). -/
noncomputable def cliqueSets (edges : List (Nat × Nat)) (size k : Nat) : Cells := fun d =>
  open Classical in
  if d ≤ max k 1 then
    ((Finset.range size).powersetCard (d + 1)).filter fun s => ∀ u ∈ s, ∀ v ∈ s, u ≠ v → Joined edges u v
  else ∅

/-- The cells of dimension at most `m`. -/
def Cells.upTo (K : Cells) (m : Nat) : Cells := fun d => if d ≤ m then K d else ∅

/-- The cells one dimension below whose vertices are in `s`. -/
def Cells.facesOf (K : Cells) : Nat → Finset Nat → Finset (Finset Nat)
  | 0, _ => ∅
  | d + 1, s => (K d).filter fun f => f ⊆ s

/-- The cells one dimension above that have the vertices of `s`. -/
def Cells.cofacesOf (K : Cells) (d : Nat) (s : Finset Nat) : Finset (Finset Nat) :=
  (K (d + 1)).filter fun t => s ⊆ t

section
variable [AddCommMonoid R]

/-- The new feature of the cell `s` of dimension `d`. Messages come from the other cells of every coface,
with the feature of the coface; (when `down`) from the other cells around every face, with the feature of
the face; and from the faces. -/
def Cells.step (K : Cells) (r : Rule R) (down : Bool) (h : Nat → Finset Nat → R) (d : Nat) (s : Finset Nat) : R :=
  r.new (h d s)
    (∑ t ∈ K.cofacesOf d s, ∑ u ∈ (K d).filter (fun u => u ⊆ t ∧ u ≠ s), r.up (h d u) (some (h (d + 1) t)))
    (if down then
      ∑ f ∈ K.facesOf d s, ∑ u ∈ (K d).filter (fun u => f ⊆ u ∧ u ≠ s), r.down (h d u) (h (d - 1) f)
    else 0)
    (∑ f ∈ K.facesOf d s, r.bnd (h (d - 1) f))

/-- The features after each of the layers; layers change the dimensions up to `m`. -/
def Cells.run (K : Cells) (down : Bool) (m : Nat) : (Nat → Finset Nat → R) → List (Nat → Rule R) →
    List (Nat → Finset Nat → R)
  | _, [] => []
  | h, rules :: rest =>
    (fun d s => if d ≤ m then K.step (rules d) down h d s else h d s) ::
      Cells.run K down m (fun d s => if d ≤ m then K.step (rules d) down h d s else h d s) rest

/-- The feature of a cell that goes to the pooling: the last one, or the jumping knowledge of all. -/
def jumpOf (jump : Option (List R → R)) (hs : List (Nat → Finset Nat → R)) (d : Nat) (s : Finset Nat) : R :=
  match jump with
  | none => ((hs.getLast?).map fun h => h d s).getD 0
  | some f => f (hs.map fun h => h d s)

/-- Sum of the features of the cells, or sum divided by their number. -/
def poolSet (𝕜 : Type) [Field 𝕜] [Module 𝕜 R] (readout : String) (S : Finset (Finset Nat))
    (h : Finset Nat → R) : R :=
  if readout = "mean" then ((max S.card 1 : Nat) : 𝕜)⁻¹ • ∑ s ∈ S, h s else ∑ s ∈ S, h s

section
variable {Lv : Type} [Field 𝕜] [Module 𝕜 R]

/-- The prediction of a SparseCIN or CIN++ network for cells `K` with features `h`. -/
def SparseNet.predictOn (𝕜 : Type) [Field 𝕜] [Module 𝕜 R] (rule : Lv → Rule R) (net : SparseNet R Lv) (down : Bool)
    (K : Cells) (h : Nat → Finset Nat → R) : R :=
  net.lin2 (poolOf 𝕜 net.finalReadout (net.dims.map fun d =>
    net.act ((net.lin1s[d]?.getD id) (poolSet 𝕜 net.readout (K d)
      (jumpOf net.jump (K.run down net.maxDim h (net.convs.map (rulesOf rule))) d)))))

/-- The prediction of a CIN network for cells `K` with features `h`. -/
def CINNet.predictOn (𝕜 : Type) [Field 𝕜] [Module 𝕜 R] (rule : Lv → Rule R) (net : CINNet R Lv) (down : Bool)
    (K : Cells) (h : Nat → Finset Nat → R) : R :=
  net.lin2 (net.act (net.lin1 (((List.range (net.maxDim + 1)).map fun d => poolSet 𝕜 net.readout (K d)
    (jumpOf net.jump (K.run down net.maxDim h (net.convs.map (rulesOf rule))) d)).sum)))

end

/-- The features of the vertices of a cell, combined. -/
def combineSet (agg : List R → R) (x : List R) (s : Finset Nat) : R := agg ((s.sort (· ≤ ·)).map (rowOf x))

/-- The features of the cells of a clique complex: a vertex keeps its own (the sum over its
only element), the others combine those of their vertices. -/
def cliqueFeatures (agg : List R → R) (x : List R) : Nat → Finset Nat → R
  | 0, s => ∑ v ∈ s, rowOf x v
  | _, s => combineSet agg x s

/-- The features of the cells of a ring complex: likewise, but an edge has the feature of its columns in
the edge index if there are such features. -/
def RGraph.features (agg : List R → R) (G : RGraph R L) : Nat → Finset Nat → R
  | 0, s => ∑ v ∈ s, rowOf G.x v
  | 1, s =>
    match G.attr with
    | none => combineSet agg G.x s
    | some a => (((G.edges.zip a).find? fun p => decide (s = {p.1.1, p.1.2})).map Prod.snd).getD 0
  | _, s => combineSet agg G.x s

/-- The features after the initial layer of an embedding network: vertices are embedded; edges are
embedded if they come with features, and reduce their ends otherwise; 2-cells get half of the reduction
of what their edges get from their ends. -/
noncomputable def EmbedInit.onSets (l : EmbedInit R) (edgeFeatures : Bool) (K : Cells)
    (h : Nat → Finset Nat → R) : Nat → Finset Nat → R :=
  let ends (s : Finset Nat) : R := l.reduce ((K.facesOf 1 s).toList.map fun f => l.vEmbed (h 0 f))
  fun d s => match d with
    | 0 => l.vEmbed (h 0 s)
    | 1 => match l.eEmbed with
      | some f => if edgeFeatures then f (h 1 s) else ends s
      | none => ends s
    | d + 2 => l.half (l.reduce ((K.facesOf (d + 2) s).toList.map ends))

/-- The prediction of the GIN baseline for cells `K` with features `h`: only vertices are updated and
pooled. -/
def EmbedGIN.predictOn {𝕜 : Type} [Field 𝕜] [Module 𝕜 R] (net : EmbedGIN 𝕜 R) (K : Cells)
    (h : Nat → Finset Nat → R) : R :=
  net.lin2 (net.act (net.lin1 (poolSet 𝕜 net.readout (K 0)
    (jumpOf none (K.run false 0 h (net.convs.map fun l _ => l.rule)) 0))))

end

end Verif
