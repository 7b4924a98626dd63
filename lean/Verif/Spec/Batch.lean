import Verif.Model.Complex

/-!
# Specification vocabulary for batching

Small definitions used to state the batching properties; none of them is used by the model.
-/

namespace Verif

variable {F L : Type}

/-- The number of cells a cochain reports, 0 when it reports none. -/
def Cochain.count (c : Cochain F L) : Nat :=
  match c.numCells with
  | .ok (some n) => n
  | _ => 0

/-- The number of cells one dimension below that a cochain reports, 0 when it reports none. -/
def Cochain.countDown (c : Cochain F L) : Nat :=
  match c.numCellsDown with
  | .ok (some n) => n
  | _ => 0

/-- The number of cells one dimension above that a cochain reports, 0 when it reports none. -/
def Cochain.countUp (c : Cochain F L) : Nat :=
  match c.numCellsUp with
  | .ok (some n) => n
  | _ => 0

/-- Sum of a count over the items before position `i`. -/
def before {C : Type} (count : C → Nat) (cs : List C) (i : Nat) : Nat :=
  ((cs.take i).map count).sum

/-- The disjoint union of the attribute `get` of the items: item `i` contributes its entries,
each changed by `place i`; items without the attribute contribute nothing; the attribute is
absent when no item has it. -/
def unionOf {C A : Type} (get : C → Option (List A)) (place : Nat → A → A) (cs : List C) :
    Option (List A) :=
  if ∃ c ∈ cs, (get c).isSome then
    some (cs.zipIdx.flatMap fun ci => ((get ci.1).getD []).map (place ci.2))
  else none

/-- Position `k` lies in the segment of item `i`. -/
def inSeg {C : Type} (count : C → Nat) (cs : List C) (i k : Nat) : Bool :=
  decide (before count cs i ≤ k) && decide (k < before count cs (i + 1))

end Verif
