import Verif.Model.Storage

/-!
# Specification of processed files over a history of constructions
-/

namespace Verif

variable {O V : Type}

/-- An attempt for which `process` ends, or is killed only when all the files are there: these contents. -/
def Store.Completes (S : Store O V) (a : Attempt O) (vs : List V) : Prop :=
  ∃ o, S.process a.options a.draw = .ok (o, vs) ∧ ∀ n, a.killed = some n → vs.length ≤ n

/-- A class of datasets with sensible file names: there are some, no name twice, `process` keeps the options and
gives one content per name, and two choices of options have the same files or none in common. -/
structure Store.Regular (S : Store O V) : Prop where
  some_file : ∀ o, S.paths o ≠ []
  nodup : ∀ o, (S.paths o).Nodup
  keeps : ∀ o d o' vs, S.process o d = .ok (o', vs) → o' = o ∧ vs.length = (S.paths o).length
  apart : ∀ o o' p, p ∈ S.paths o → p ∈ S.paths o' → S.paths o = S.paths o'

/-- What an attempt gives if nothing is on disk. -/
def Store.alone (S : Store O V) (a : Attempt O) : Option (Py (List V)) :=
  match S.process a.options a.draw, a.killed with
  | .error e, _ => some (.error e)
  | .ok _, some _ => none
  | .ok r, none => some (.ok r.2)

/-- The first attempt in the history that wrote the files of these options completely, with the contents `vs`. -/
def Store.First (S : Store O V) (history : List (Attempt O)) (o : O) (vs : List V) : Prop :=
  ∃ (i : Nat) (a : Attempt O), history[i]? = some a ∧ S.paths a.options = S.paths o ∧ S.Completes a vs ∧
    ∀ (j : Nat) (b : Attempt O) (ws : List V), j < i → history[j]? = some b →
      S.paths b.options = S.paths o → ¬ S.Completes b ws

end Verif
