import Verif.Model.Reuse

/-!
# Specification for repeated calls
-/

namespace Verif

variable {F L R Lv : Type}

/-- The two complexes differ in the features of cells only. -/
def OnlyFeatures (a b : Complex F L) : Prop :=
  b = { a with cochains := b.cochains } ∧ List.Forall₂ (fun c c' : Cochain F L => c' = { c with x := c'.x }) a.cochains b.cochains

/-- The network with its layers repeated `n` times. -/
def SparseNet.deep (net : SparseNet R Lv) (n : Nat) : SparseNet R Lv :=
  { net with convs := (List.replicate n net.convs).flatten }

/-- The network with its layers repeated `n` times. -/
def CINNet.deep (net : CINNet R Lv) (n : Nat) : CINNet R Lv :=
  { net with convs := (List.replicate n net.convs).flatten }

end Verif
