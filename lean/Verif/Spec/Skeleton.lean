import Verif.Spec.CellNet
import Verif.Spec.Power
import Verif.Spec.GraphNets
import Verif.Spec.Lifting

/-!
# Specification of networks against colour refinement on graphs
-/

namespace Verif

variable {R L A : Type}

/-- Nodes `c` of `g` and `e` of `h` have the same colour after `n` rounds of colour refinement with bonds: as in
`SameNode`, and neighbours are paired off only if they are bonded in the same way. -/
def SameAtom (g h : GData R) (b b' : Nat → Nat → A) : Nat → Nat → Nat → Prop
  | 0, c, e => ∃ x, g.x[c]? = some x ∧ h.x[e]? = some x
  | n + 1, c, e => SameAtom g h b b' n c e ∧
      Matched (fun p q => SameAtom g h b b' n p.1 q.1 ∧ b p.2 p.1 = b' q.2 q.1)
        (g.edges.filter fun p => p.2 == c) (h.edges.filter fun q => q.2 == e)

/-- The test with bonds does not tell the graphs apart in `n` rounds. -/
def SameAtoms (g h : GData R) (b b' : Nat → Nat → A) (n : Nat) : Prop :=
  Matched (SameAtom g h b b' n) (List.range g.x.length) (List.range h.x.length)

/-- The feature of an edge, if edges have features. -/
def RGraph.bond (G : RGraph R L) (u v : Nat) : Option R :=
  G.attr.bind fun a =>
    ((G.edges.zip a).find? fun p => decide (p.1 = (u, v) ∨ p.1 = (v, u))).map Prod.snd

/-- A graph whose edge index lists every edge once in each direction, and no loops; one row per node. -/
structure GData.Plain (g : GData R) : Prop where
  edges : EdgesIn g.edges g.x.length
  loops : NoLoops g.edges
  simple : Simple g.edges

/-- Three nodes joined to each other. -/
def HasTriangle (edges : List (Nat × Nat)) : Prop :=
  ∃ u v w, Joined edges u v ∧ Joined edges v w ∧ Joined edges w u

/-- The number of sets of `d + 1` nodes any two of which are joined. -/
def cliqueNumber (edges : List (Nat × Nat)) (size d : Nat) : Nat :=
  (((Finset.range size).powersetCard (d + 1)).filter fun s =>
    ∀ u ∈ s, ∀ v ∈ s, u ≠ v → Joined edges u v).card

end Verif
