import Verif.Spec.Lower

/-!
# Specification of messages along the boundaries

Everything is said with the incidences (face, cell) of a complex alone.
-/

namespace Verif

variable {R : Type} [AddCommMonoid R]

/-- The sum over the faces of cell `c` of dimension `d`. -/
def View.overFaces (v : View R) (d c : Nat) (g : Nat → R) : R :=
  (((v.bnd d).filter fun p => p.2 == c).map fun p => g p.1).sum

/-- The sum over the faces of cell `c` of dimension `d` other than `f`. -/
def View.overOtherFaces (v : View R) (d c f : Nat) (g : Nat → R) : R :=
  (((v.bnd d).filter fun p => p.2 == c && p.1 != f).map fun p => g p.1).sum

/-- The sum over the cells of dimension `d` that have `f` as a face. -/
def View.overCofaces (v : View R) (d f : Nat) (g : Nat → R) : R :=
  (((v.bnd d).filter fun p => p.1 == f).map fun p => g p.2).sum

/-- The sum over the cells of dimension `d` other than `c` that have `f` as a face. -/
def View.overOtherCofaces (v : View R) (d f c : Nat) (g : Nat → R) : R :=
  (((v.bnd d).filter fun p => p.1 == f && p.2 != c).map fun p => g p.2).sum

/-- The number of faces of cell `c` of dimension `d`. -/
def View.faceCount (v : View R) (d c : Nat) : Nat := (v.bnd d).countP fun p => p.2 == c

/-- The number of cells of dimension `d` that have `f` as a face. -/
def View.cofaceCount (v : View R) (d f : Nat) : Nat := (v.bnd d).countP fun p => p.1 == f

/-- The number of cells of dimension `d` that have both `a` and `b` as faces. -/
def View.commonCofaces (v : View R) (d a b : Nat) : Nat := (v.bnd d).countP fun p => p.1 == a && (v.bnd d).contains (b, p.2)

/-- The number of common faces of the cells `a` and `b` of dimension `d`. -/
def View.commonFaces (v : View R) (d a b : Nat) : Nat := (v.bnd d).countP fun p => p.2 == a && (v.bnd d).contains (p.1, b)

end Verif
