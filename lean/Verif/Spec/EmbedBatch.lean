import Verif.Spec.Relabel
import Verif.Spec.Models
import Verif.Spec.Embed

/-!
# Specification of the embedding networks on single complexes

The initial features and the prediction for one complex, cell by cell, with no batch in sight.
-/

namespace Verif

variable {R L : Type}

section
variable [AddCommMonoid R]

/-- The reduction of the rows of the boundary of cell `c`; `bi` lists (boundary cell, cell). -/
def reduceAt (reduce : List R → R) (rows : List R) (bi : List (Nat × Nat)) (c : Nat) : R :=
  reduce ((bi.filter (fun p => p.2 == c)).map fun p => rowOf rows p.1)

/-- The boundary columns of dimension `d`. -/
def Complex.faces (comp : Complex R L) (d : Nat) : List (Nat × Nat) :=
  (comp.attr d Cochain.boundaryIndex).getD []

/-- The rows of the vertices after the initial layer: their embeddings. -/
def EmbedInit.vertexRows (l : EmbedInit R) (comp : Complex R L) : List R :=
  ((comp.attr 0 Cochain.x).getD []).map l.vEmbed

/-- What an edge gets from its vertices. -/
def EmbedInit.edgeSums (l : EmbedInit R) (comp : Complex R L) : List R :=
  (List.range (comp.cellsIn 1)).map (reduceAt l.reduce (l.vertexRows comp) (comp.faces 1))

/-- The rows of a dimension after the initial layer. Vertices are embedded; edges are embedded when they
have features and get the reduction of their vertices otherwise; 2-cells get half of the reduction of
what their edges get from the vertices, whether the edges have features or not. -/
def EmbedInit.rows (l : EmbedInit R) (comp : Complex R L) : Nat → List R
  | 0 => l.vertexRows comp
  | 1 =>
    match comp.attr 1 Cochain.x, l.eEmbed with
    | some x, some f => x.map f
    | _, _ => l.edgeSums comp
  | d + 2 => ((List.range (comp.cellsIn (d + 2))).map
      (reduceAt l.reduce (l.edgeSums comp) (comp.faces (d + 2)))).map l.half

/-- The complex with the features the initial layer gives to its cells. -/
def EmbedInit.embed (l : EmbedInit R) (comp : Complex R L) : Complex R L :=
  { comp with cochains := comp.cochains.mapIdx fun d (c : Cochain R L) =>
    { c with x := some (l.rows comp d) } }

/-- The prediction of an embedding network for one complex, reading dimensions up to `mB`. -/
def EmbedNet.predict {Lv : Type} (𝕜 : Type) [Field 𝕜] [Module 𝕜 R] (rule : Lv → Rule R)
    (net : EmbedNet R Lv) (mB : Nat) (comp : Complex R L) : R :=
  net.net.predict 𝕜 rule ((net.init.embed comp).view.upTo mB)

/-- What a GINE layer computes for a vertex: messages come from its neighbours, with the features of
the edge in between. -/
def GINELevel.rule {𝕜 : Type} [Field 𝕜] [Module 𝕜 R] (l : GINELevel 𝕜 R) : Rule R where
  up x a := (a.map (l.msg x)).getD 0
  down _ _ := 0
  bnd _ := 0
  new x u _ _ := l.nn (u + (1 + l.eps) • x)

/-- The prediction of the GIN baseline for one complex: only vertices are updated, only vertices and
edges are read. -/
def EmbedGIN.predict {𝕜 : Type} [Field 𝕜] [Module 𝕜 R] (net : EmbedGIN 𝕜 R) (comp : Complex R L) : R :=
  let v := (net.init.embed comp).view.upTo 1
  net.lin2 (net.act (net.lin1 (poolOf 𝕜 net.readout
    (v.final none (v.run 0 true (net.convs.map fun l _ => l.rule)) 0))))

end

/-- The network that `forwardNoRings` runs, as a plain embedding network on complexes of dimension at
most 1. -/
def EmbedNet.flat {Lv : Type} (net : EmbedNet R Lv) : EmbedNet R Lv :=
  { net with net := { net.net with maxDim := 1, readoutDims := some [0, 1], jump := none } }

/-- A complex the initial layer can embed: valid, of dimension at most 2, no empty dimension, vertices
with features and nothing below them, every edge and 2-cell with a boundary; edge features only if the
layer embeds them. Features of 2-cells may be missing. -/
structure EmbedInit.Takes (l : EmbedInit R) (comp : Complex R L) : Prop where
  valid : comp.Valid
  small : comp.dimension ≤ 2
  cells : ∀ d, d ≤ comp.dimension → 0 < comp.cellsIn d
  nodes : (comp.attr 0 Cochain.x).isSome
  vertices : comp.attr 0 Cochain.lowerIndex = none
  faces : ∀ d c, 1 ≤ d → c < comp.cellsIn d → ∃ p ∈ comp.faces d, p.2 = c
  edges : (comp.attr 1 Cochain.x).isSome → l.eEmbed.isSome

/-- What the layer needs of a complex of any dimension that is cut off above its 2-cells: the same, but for the dimension. -/
structure EmbedInit.Embeds (l : EmbedInit R) (comp : Complex R L) : Prop where
  valid : comp.Valid
  cells : ∀ d, d ≤ comp.dimension → 0 < comp.cellsIn d
  nodes : (comp.attr 0 Cochain.x).isSome
  vertices : comp.attr 0 Cochain.lowerIndex = none
  faces : ∀ d c, 1 ≤ d → c < comp.cellsIn d → ∃ p ∈ comp.faces d, p.2 = c
  edges : (comp.attr 1 Cochain.x).isSome → l.eEmbed.isSome

/-- In each dimension all the complexes have features or none has, as in a data set. -/
def UniformFeatures (cs : List (Complex R L)) : Prop :=
  ∀ d, (∀ c ∈ cs, d ≤ c.dimension → (c.attr d Cochain.x).isSome) ∨ ∀ c ∈ cs, c.attr d Cochain.x = none


/-- `c'` is `c` with cell `k` of dimension `d` renamed to `φ d k`, where some dimensions may be without
features: the renaming is one-to-one, features (if there are any) go with the cells, and the columns are
the renamed columns in some order. -/
structure RelabelsCells (c c' : Complex R L) (φ : Nat → Nat → Nat) : Prop where
  size : ∀ d, c'.cellsIn d = c.cellsIn d
  inj : ∀ d j k, j < c.cellsIn d → k < c.cellsIn d → φ d j = φ d k → j = k
  some : ∀ d, (c'.attr d Cochain.x).isSome = (c.attr d Cochain.x).isSome
  feat : ∀ d k, k < c.cellsIn d → (c'.view.X d)[φ d k]? = (c.view.X d)[k]?
  up : ∀ d, (c'.view.up d).Perm ((c.view.up d).map fun p => ((φ d p.1.1, φ d p.1.2), φ (d + 1) p.2))
  down : ∀ d, (c'.view.down d).Perm
    ((c.view.down d).map fun p => ((φ d p.1.1, φ d p.1.2), φ (d - 1) p.2))
  bnd : ∀ d, (c'.view.bnd d).Perm ((c.view.bnd d).map fun p => (φ (d - 1) p.1, φ d p.2))

end Verif
