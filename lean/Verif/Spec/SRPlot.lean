import Verif.Model.SRPlot

/-!
# What is asked of printed numbers, and the digits of a family
-/

namespace Verif

variable {V : Type}

/-- The digits in the name of a family. -/
def familyDigits (name : String) : List Char := name.toList.filter Char.isDigit

/-- What is needed of `str` and `float` of a number: reading gives back what was written, which is a word without a
colon. -/
structure Prints (shown : V → Text) (number : Text → Py V) : Prop where
  back : ∀ v, number (shown v) = .ok v
  ne : ∀ v, shown v ≠ []
  word : ∀ v, ∀ c ∈ shown v, pySpace c = false ∧ c ≠ ':'

end Verif
