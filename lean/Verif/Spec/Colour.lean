import Verif.Spec.Runs

/-!
# Specification of cellular colour refinement

The cellular Weisfeiler-Lehman test, said without colours: when two cells have the same colour after
`n` rounds. Nothing here is used by the model of the code.
-/

namespace Verif

variable {R L A B : Type}

/-- The elements of `l` and `m` can be paired off, in some order, so that partners are related. -/
def Matched (rel : A → B → Prop) (l : List A) (m : List B) : Prop :=
  ∃ m', m'.Perm m ∧ List.Forall₂ rel l m'

/-- Cell `c` of dimension `d` of `v` and cell `e` of the same dimension of `w` have the same colour after
`n` rounds. At first: the same features. In each round the colours of the boundary cells, the colours of
upper neighbours together with that of the shared cell, and, if `lower`, the colours of lower neighbours
together with that of the shared cell are collected, with multiplicities. -/
def SameColour (lower : Bool) (v w : View R) : Nat → Nat → Nat → Nat → Prop
  | 0, d, c, e => ∃ x, (v.X d)[c]? = some x ∧ (w.X d)[e]? = some x
  | n + 1, d, c, e =>
    SameColour lower v w n d c e ∧
    Matched (fun p q => SameColour lower v w n d p.1.1 q.1.1 ∧ SameColour lower v w n (d + 1) p.2 q.2)
      ((v.up d).filter fun p => p.1.2 == c) ((w.up d).filter fun q => q.1.2 == e) ∧
    (lower = true → Matched (fun p q => SameColour lower v w n d p.1.1 q.1.1 ∧
        SameColour lower v w n (d - 1) p.2 q.2)
      ((v.down d).filter fun p => p.1.2 == c) ((w.down d).filter fun q => q.1.2 == e)) ∧
    Matched (fun p q => SameColour lower v w n (d - 1) p.1 q.1)
      ((v.bnd d).filter fun p => p.2 == c) ((w.bnd d).filter fun q => q.2 == e)

/-- In every dimension the two views have the same colours, with multiplicities, after `n` rounds: the
test does not tell them apart in `n` rounds. -/
def SameColours (lower : Bool) (v w : View R) (n : Nat) : Prop :=
  ∀ d, Matched (SameColour lower v w n d) (List.range (v.X d).length) (List.range (w.X d).length)

end Verif
