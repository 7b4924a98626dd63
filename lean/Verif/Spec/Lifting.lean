import Verif.Spec.Complex
import Verif.Model.Lifting

/-!
# Specification of liftings

Nothing here is used by the model of the code.
-/

namespace Verif

variable {F L : Type}

/-- A simplex: the increasing list of its vertices. -/
def IsSimplex (s : List Nat) : Prop := s ≠ [] ∧ s.Pairwise (· < ·)

/-- `f` is a face of `c` of codimension one: `c` without one of its vertices. -/
def IsFacet (f c : List Nat) : Prop := f.Sublist c ∧ f.length + 1 = c.length

instance (f c : List Nat) : Decidable (IsFacet f c) := by unfold IsFacet; infer_instance

/-- A simplex tree that holds a simplicial complex with the vertices `0 .. size - 1`: every simplex is
listed once, faces of simplices are there, and the cofaces are the simplices one dimension higher that
have the simplex as a face, each once. -/
structure SimplexTree.Holds (st : SimplexTree) (size : Nat) : Prop where
  nodup : st.simplices.Nodup
  simplex : ∀ s ∈ st.simplices, IsSimplex s
  closed : ∀ s ∈ st.simplices, ∀ f, f ≠ [] → IsFacet f s → f ∈ st.simplices
  vertices : ∀ v, [v] ∈ st.simplices ↔ v < size
  cofacesNodup : ∀ s ∈ st.simplices, (st.cofaces s).Nodup
  cofaces : ∀ s ∈ st.simplices, ∀ c, c ∈ st.cofaces s ↔ c ∈ st.simplices ∧ IsFacet s c

/-- The contract of gudhi: the simplices after insertions are the sets of vertices contained in an
inserted one; `expansion(k)` adds the sets of at most `k + 1` vertices any two of which are together in
an inserted one. Every simplex is listed once, in any order, and `get_cofaces` gives the cofaces, each
once, in any order. -/
structure Gudhi.Ok (g : Gudhi) : Prop where
  nodup : ∀ ins, (g.inserted ins).simplices.Nodup
  mem : ∀ ins s, s ∈ (g.inserted ins).simplices ↔ IsSimplex s ∧ ∃ t ∈ ins, s ⊆ t
  cofacesNodup : ∀ ins, ∀ s ∈ (g.inserted ins).simplices, ((g.inserted ins).cofaces s).Nodup
  cofaces : ∀ ins, ∀ s ∈ (g.inserted ins).simplices, ∀ c, c ∈ (g.inserted ins).cofaces s ↔
    c ∈ (g.inserted ins).simplices ∧ IsFacet s c
  nodup' : ∀ ins k, (g.expanded ins k).simplices.Nodup
  mem' : ∀ ins k s, s ∈ (g.expanded ins k).simplices ↔ IsSimplex s ∧ ((∃ t ∈ ins, s ⊆ t) ∨
    (s.length ≤ k + 1 ∧ ∀ u ∈ s, ∀ v ∈ s, ∃ t ∈ ins, u ∈ t ∧ v ∈ t))
  cofacesNodup' : ∀ ins k, ∀ s ∈ (g.expanded ins k).simplices, ((g.expanded ins k).cofaces s).Nodup
  cofaces' : ∀ ins k, ∀ s ∈ (g.expanded ins k).simplices, ∀ c, c ∈ (g.expanded ins k).cofaces s ↔
    c ∈ (g.expanded ins k).simplices ∧ IsFacet s c

/-- Two different vertices joined by an edge, in either direction. -/
def Joined (edges : List (Nat × Nat)) (u v : Nat) : Prop := u ≠ v ∧ ((u, v) ∈ edges ∨ (v, u) ∈ edges)

instance (edges : List (Nat × Nat)) (u v : Nat) : Decidable (Joined edges u v) := by
  unfold Joined; infer_instance

/-- `s` is a clique of the graph with the vertices `0 .. size - 1`. -/
def IsClique (edges : List (Nat × Nat)) (size : Nat) (s : List Nat) : Prop :=
  IsSimplex s ∧ (∀ v ∈ s, v < size) ∧ ∀ u ∈ s, ∀ v ∈ s, u ≠ v → Joined edges u v

/-- The ends of all edges are vertices. -/
def EdgesIn (edges : List (Nat × Nat)) (size : Nat) : Prop := ∀ e ∈ edges, e.1 < size ∧ e.2 < size

/-- `π` is an isomorphism of graphs with `size` vertices that carries the features `x` to `x'`. -/
structure GraphIso (edges edges' : List (Nat × Nat)) (size : Nat) (x x' : List F) (π : Nat → Nat) : Prop where
  vertex : ∀ v, v < size → π v < size
  inj : ∀ u v, u < size → v < size → π u = π v → u = v
  joined : ∀ u v, u < size → v < size → (Joined edges' (π u) (π v) ↔ Joined edges u v)
  feat : ∀ v, v < size → x'[π v]? = x[v]?

/-- `cells d` are the cells of dimension `d` of a complex in the order of their ids, below dimension
`dims`; `face f c` says that `f` is a face of `c` of codimension one. The complex carries exactly the
incidences and adjacencies these cells have: every column once. Lower adjacencies are there iff
`down`. -/
structure LiftsTo (comp : Complex F L) (cells : Nat → List (List Nat)) (dims : Nat)
    (face : List Nat → List Nat → Prop) (down : Bool) : Prop where
  size : comp.dimension + 1 = dims
  count : ∀ d, d < dims → comp.cellsIn d = (cells d).length
  bndNodup : ∀ d, ((comp.attr d Cochain.boundaryIndex).getD []).Nodup
  bnd : ∀ d f c, (f, c) ∈ (comp.attr (d + 1) Cochain.boundaryIndex).getD [] ↔ d + 1 < dims ∧
    ∃ s t, (cells d)[f]? = some s ∧ (cells (d + 1))[c]? = some t ∧ face s t
  upBoth : ∀ d, ((comp.attr d Cochain.upperIndex).getD []).length =
    ((comp.attr d Cochain.sharedCoboundaries).getD []).length
  upNodup : ∀ d, (((comp.attr d Cochain.upperIndex).getD []).zip
    ((comp.attr d Cochain.sharedCoboundaries).getD [])).Nodup
  up : ∀ d a b c, ((a, b), c) ∈ ((comp.attr d Cochain.upperIndex).getD []).zip
      ((comp.attr d Cochain.sharedCoboundaries).getD []) ↔ d + 1 < dims ∧ a ≠ b ∧
    ∃ s t u, (cells d)[a]? = some s ∧ (cells d)[b]? = some t ∧ (cells (d + 1))[c]? = some u ∧
      face s u ∧ face t u
  downBoth : ∀ d, ((comp.attr d Cochain.lowerIndex).getD []).length =
    ((comp.attr d Cochain.sharedBoundaries).getD []).length
  downNodup : ∀ d, (((comp.attr d Cochain.lowerIndex).getD []).zip
    ((comp.attr d Cochain.sharedBoundaries).getD [])).Nodup
  down : ∀ d a b c, ((a, b), c) ∈ ((comp.attr (d + 1) Cochain.lowerIndex).getD []).zip
      ((comp.attr (d + 1) Cochain.sharedBoundaries).getD []) ↔ down = true ∧ d + 1 < dims ∧ a ≠ b ∧
    ∃ s t u, (cells (d + 1))[a]? = some s ∧ (cells (d + 1))[b]? = some t ∧ (cells d)[c]? = some u ∧
      face u s ∧ face u t
  vertices : comp.attr 0 Cochain.boundaryIndex = none ∧ comp.attr 0 Cochain.lowerIndex = none ∧
    comp.attr 0 Cochain.sharedBoundaries = none

end Verif
