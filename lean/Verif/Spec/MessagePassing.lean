import Verif.Model.MessagePassing
import Mathlib.Algebra.BigOperators.Group.Finset.Basic

/-!
# Specification vocabulary for message passing
-/

namespace Verif

variable {F A M : Type}

/-- `m` is the message that `msg` builds from the row `x` of a source cell and the attribute row `a`
of the column. -/
inductive Msg.Builds : Msg F A M → F → Option A → M → Prop
  | plain (f : F → M) (x : F) (a : Option A) : Builds (.plain f) x a (f x)
  | withAttr (f : F → A → M) (x : F) (a : A) : Builds (.withAttr f) x (some a) (f x a)
  | optNone (f : F → M) (g : F → A → M) (x : F) : Builds (.optAttr f g) x none (f x)
  | optSome (f : F → M) (g : F → A → M) (x : F) (a : A) : Builds (.optAttr f g) x (some a) (g x a)

/-- `out` has one row per cell; the row of cell `c` is the sum, over the columns of `cols` whose
target is `c`, of the message built from the row of the source cell in `data` and the attribute of
the column. -/
def SumsMessages [AddCommMonoid M] (msg : Msg F A M) (n : Nat) (data : List F)
    (cols : List (Nat × Nat)) (attr : Option (List A)) (out : List M) : Prop :=
  out.length = n ∧
  ∃ m : Nat → M,
    (∀ k s t, cols[k]? = some (s, t) → ∃ x, data[s]? = some x ∧
      msg.Builds x (attr.bind (·[k]?)) (m k)) ∧
    ∀ c < n, out[c]? = some (∑ k ∈ (Finset.range cols.length).filter
      (fun k => (cols[k]?.map Prod.snd) = some c), m k)

/-- All cells get the zero row. -/
def AllZero [Zero M] (n : Nat) (out : List M) : Prop :=
  out.length = n ∧ ∀ c < n, out[c]? = some 0

end Verif
