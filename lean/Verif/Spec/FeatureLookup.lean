import Verif.Spec.Convert

/-!
# Specification of the lookup of the number of features

Nothing here is used by the model of the code.
-/

namespace Verif

variable {F L : Type}

/-- All complexes have dimension at most `maxDim`, have all their cochains, and any two of them that have
dimension `d` have features of the same width there. -/
structure Uniform (width : F → Nat) (comps : List (Complex F L)) (maxDim : Nat) : Prop where
  fits : ∀ comp ∈ comps, comp.dimension ≤ maxDim
  has : ∀ comp ∈ comps, ∀ d, d ≤ comp.dimension → ∃ c : Cochain F L, comp.cochains[d]? = some c
  agree : ∀ comp ∈ comps, ∀ comp' ∈ comps, ∀ (d : Nat) (c c' : Cochain F L) (w w' : Nat), d ≤ comp.dimension →
    d ≤ comp'.dimension → comp.cochains[d]? = some c → comp'.cochains[d]? = some c' →
    HasWidth width c.x w → HasWidth width c'.x w' → w = w'

/-- The answer for dimension `d`: the width of the features of the complexes of at least that dimension, or
`none` if there are none. -/
def IsAnswer (width : F → Nat) (comps : List (Complex F L)) (d : Nat) : Option Nat → Prop
  | none => ∀ comp ∈ comps, comp.dimension < d
  | some w => ∃ comp ∈ comps, d ≤ comp.dimension ∧ ∃ c : Cochain F L, comp.cochains[d]? = some c ∧
      HasWidth width c.x w

end Verif
