import Verif.Model.Partial

/-!
# Specification of intermediate results
-/

namespace Verif

variable {R C : Type}

/-- What a network returns for a batch is put together from what it returns for its members alone: the predictions one after
the other, and under each key the rows of the members that have the key, one after the other; a key is there if a member has it. -/
def PutTogether (f : List C → Py (List R × Results (List R))) (cs : List C) : Prop :=
  ∃ preds res singles, f cs = .ok (preds, res) ∧ List.Forall₂ (fun c (s : List R × Results (List R)) => f [c] = .ok s) cs singles ∧
    preds = singles.flatMap Prod.fst ∧ (res.map Prod.fst).Nodup ∧
    ∀ key, ((∀ s ∈ singles, s.2.lookup key = none) → res.lookup key = none) ∧
      ((∃ s ∈ singles, s.2.lookup key ≠ none) → res.lookup key = some (singles.flatMap fun s => (s.2.lookup key).getD []))

end Verif
