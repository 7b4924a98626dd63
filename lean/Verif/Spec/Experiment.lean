import Verif.Model.Experiment
import Mathlib.Data.Finset.Card
import Mathlib.Data.Finset.Prod
import Mathlib.Data.Finset.Range

/-!
# Specification vocabulary for training and evaluation
-/

namespace Verif

variable {F L S P : Type}

/-- The batch has `n d` cells in each dimension `d` up to its own, and features on the vertices. -/
structure CellCounts (batch : Complex F L) (n : Nat → Nat) : Prop where
  vertices : ∃ c rows, batch.cochains[0]? = some c ∧ c.x = some rows ∧ rows.length = n 0
  cells : ∀ d, 1 ≤ d → d ≤ batch.dimension → ∃ c, batch.cochains[d]? = some c ∧ c.numCells = .ok (some (n d))

/-- At least two cells in every dimension, at least two nodes of a graph. -/
def Enough : LoaderBatch F L → (Nat → Nat) → Prop
  | .complexes batch, n => ∀ d, d ≤ batch.dimension → 2 ≤ n d
  | .graphs rows, _ => 2 ≤ rows

/-- One optimiser step after the other on the batches of a list, with the losses. -/
inductive Trained {B : Type} (step : S → B → Py (S × ℚ)) : S → List B → S → List ℚ → Prop
  | nil (s : S) : Trained step s [] s []
  | cons {s s' s'' : S} {b : B} {bs : List B} {l : ℚ} {ls : List ℚ} :
      step s b = .ok (s', l) → Trained step s' bs s'' ls → Trained step s (b :: bs) s'' (l :: ls)

/-- The pairs of places of a list with a relation between their entries. -/
def placePairs (close : P → P → Bool) (l : List P) : Finset (Nat × Nat) :=
  (Finset.range l.length ×ˢ Finset.range l.length).filter fun p =>
    p.1 < p.2 ∧ ∃ a ∈ l[p.1]?, ∃ b ∈ l[p.2]?, close a b = true

/-- The state in which the next epoch begins. -/
def Trial.next (t : Trial S) (s : S) (score : Option ℚ) : S :=
  if t.scheduler = .plateau then t.decay s score else if t.scheduler = .stepLR then t.decay s none else s

/-- The learning rate has become too small. -/
def Trial.stops (t : Trial S) (s : S) (score : Option ℚ) : Prop :=
  t.scheduler = .plateau ∧ t.earlyStop = true ∧ t.lrLow (t.decay s score) = true

/-- The states after the training of each epoch: at most the given number of epochs, fewer only if the learning rate
has become too small. -/
inductive Trial.Runs (t : Trial S) : Nat → S → List S → Prop
  | done (s : S) : t.Runs 0 s []
  | stop {n : Nat} {s s' : S} {ls : List ℚ} {v : Option ℚ} : t.train s = .ok (s', ls) → t.eval .valid s' = .ok v →
      t.stops s' v → t.Runs (n + 1) s [s']
  | go {n : Nat} {s s' : S} {ls : List ℚ} {v : Option ℚ} {rest : List S} : t.train s = .ok (s', ls) →
      t.eval .valid s' = .ok v → ¬ t.stops s' v → t.Runs n (t.next s' v) rest → t.Runs (n + 1) s (s' :: rest)

end Verif
