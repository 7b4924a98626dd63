import Verif.Model.SR
import Verif.Spec.TUDataset
import Verif.Spec.Perm
import Verif.Spec.Experiment

/-!
# Specification of the datasets of strongly regular graphs

Nothing here is used by the model of the code.
-/

namespace Verif

variable {F L : Type}

/-- An undirected graph without loops: every edge is stored once in each direction. -/
structure RawGraph.Plain (G : RawGraph) : Prop where
  pos : 0 < G.2
  edges : EdgesIn G.1 G.2
  noLoops : NoLoops G.1
  nodup : G.1.Nodup
  both : ∀ e ∈ G.1, e.swap ∈ G.1

/-- The graphs are isomorphic. -/
def RawGraph.Iso (G H : RawGraph) : Prop :=
  H.2 = G.2 ∧ ∃ π : Nat → Nat, (∀ v, v < G.2 → π v < G.2) ∧ (∀ u v, u < G.2 → v < G.2 → π u = π v → u = v) ∧
    ∀ u v, u < G.2 → v < G.2 → (Joined H.1 (π u) (π v) ↔ Joined G.1 u v)

/-- What `to_undirected` guarantees: the edges in both directions, each once. -/
structure Undirects (f : List (Nat × Nat) → List (Nat × Nat)) : Prop where
  nodup : ∀ l, (f l).Nodup
  mem : ∀ l a b, (a, b) ∈ f l ↔ (a, b) ∈ l ∨ (b, a) ∈ l

/-- A construction of the dataset: the libraries as they behave in this run, and the requested dimension. -/
structure Request where
  g : Gudhi
  lib : RingLib
  order : List (List Nat) → List (List Nat)
  maxDim : Nat

/-- The libraries keep their contracts; rings have more than three nodes and need dimension 2. -/
structure Request.Ok (rings : Option Nat) (q : Request) : Prop where
  gudhi : q.g.Ok
  ringLib : q.lib.Ok
  order : ∀ l, (q.order l).Perm l
  dim : 1 ≤ q.maxDim
  rings : ∀ size, rings = some size → 3 < size ∧ q.maxDim = 2

/-- The dataset constructed on request, with the processed files before it. -/
def Request.build [DecidableEq F] [DecidableEq L] (agg : List F → F) (width : F → Nat) (one : F)
    (raw : Py (List RawGraph)) (rings : Option Nat) (down : Bool) (disk : Nat → Option (Storage F L)) (q : Request) :
    Py (SRBuilt F L) :=
  srDataset q.g q.lib agg width q.order one raw rings down disk q.maxDim

/-- The processed files after some requests, none of which raised an exception. -/
inductive After [DecidableEq F] [DecidableEq L] (agg : List F → F) (width : F → Nat) (one : F)
    (raw : Py (List RawGraph)) (rings : Option Nat) (down : Bool) :
    List Request → (Nat → Option (Storage F L)) → Prop
  | start : After agg width one raw rings down [] fun _ => none
  | next {qs : List Request} {disk : Nat → Option (Storage F L)} {q : Request} {b : SRBuilt F L} :
      After agg width one raw rings down qs disk → q.build agg width one raw rings down disk = .ok b →
      After agg width one raw rings down (qs ++ [q]) b.disk

end Verif
