import Verif.Model.Loader
import Verif.Spec.Runs

/-!
# Specification of the data loaders

Nothing here is used by the model of the code.
-/

namespace Verif

variable {R L A : Type}

/-- The ids of a split by its name. -/
inductive Splits.Has (s : Splits) : String → List Nat → Prop
  | train (ids : List Nat) (h : s.train = some ids) : s.Has "train" ids
  | valid (ids : List Nat) (h : s.valid = some ids) : s.Has "valid" ids
  | test (ids : List Nat) (h : s.test = some ids) : s.Has "test" ids

/-- Complexes as a lifting makes them for a dataset of dimension at most `maxDim`: message passing is defined on
them, every dimension they have is inhabited, and either all or none of them are labelled. -/
structure Storable (cs : List (Complex R L)) (maxDim : Nat) : Prop where
  ready : ∀ c ∈ cs, c.Ready
  full : ∀ c ∈ cs, ∀ d ≤ c.dimension, 0 < c.cellsIn d
  small : ∀ c ∈ cs, c.dimension ≤ maxDim
  labels : ∀ c ∈ cs, ∀ c' ∈ cs, c.y.isSome = c'.y.isSome

/-- A division of a list into consecutive parts of length `b`, only the last of which may be shorter. -/
structure Division (b : Nat) (l : List A) (parts : List (List A)) : Prop where
  all : parts.flatten = l
  inhabited : ∀ p ∈ parts, p ≠ [] ∧ p.length ≤ b
  full : ∀ p ∈ parts.dropLast, p.length = b

end Verif
