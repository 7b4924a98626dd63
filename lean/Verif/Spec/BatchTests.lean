import Verif.Spec.Runs

/-!
# What batches and single complexes have in common
-/

namespace Verif

variable {R L : Type}

/-- The lists that are there, one after the other; nothing if none is. -/
def gathered {A : Type} (l : List (Option (List A))) : Option (List A) :=
  if ∃ o ∈ l, o.isSome then some (l.flatMap fun o => o.getD []) else none

/-- An upper index that lists no pair is not stored. -/
def Complex.NoEmptyUpper (comp : Complex R L) : Prop := ∀ d, comp.attr d Cochain.upperIndex ≠ some []

variable [AddCommMonoid R]

/-- The features of the shared cofaces, one for each pair of upper neighbours. -/
def Complex.sharedAbove (comp : Complex R L) (d : Nat) : Option (List R) :=
  if (comp.cochains[d + 1]?).isSome then
    (comp.attr d Cochain.upperIndex).map fun _ => (comp.view.up d).map fun q => rowOf (comp.view.X (d + 1)) q.2
  else none

/-- The features of the shared faces, one for each pair of lower neighbours. -/
def Complex.sharedBelow (comp : Complex R L) (d : Nat) : Option (List R) :=
  (comp.attr d Cochain.lowerIndex).map fun _ => (comp.view.down d).map fun q => rowOf (comp.view.below d) q.2

/-- The features of the faces, one for each pair of a face and a cell. -/
def Complex.facesOf (comp : Complex R L) (d : Nat) : Option (List R) :=
  if d = 0 then none
  else (comp.attr d Cochain.boundaryIndex).map fun _ => (comp.view.bnd d).map fun q => rowOf (comp.view.below d) q.1

/-- The features of the cells, one for each pair of a face and a cell. -/
def Complex.cellsOf (comp : Complex R L) (d : Nat) : Option (List R) :=
  if d = 0 then none
  else (comp.attr d Cochain.boundaryIndex).map fun _ => (comp.view.bnd d).map fun q => rowOf (comp.view.X d) q.2

end Verif
