import Verif.Model.Learn
import Verif.Spec.TrainMode
import Verif.Spec.Relabel

/-!
# What a training pass does to the running statistics, and when two datasets are the same
-/

namespace Verif

variable {𝕜 R L : Type}

section
variable [Field 𝕜] [AddCommMonoid R] [Module 𝕜 R]

/-- The running statistics of a normalisation that has met some rows. -/
def NormNet.moved (𝕜 : Type) [Field 𝕜] [Module 𝕜 R] (mo : Momentum R) : NormNet R → List R → NormNet R
  | .rowwise f, _ => .rowwise f
  | n, [] => n
  | .batch dev scale runMean runVar, x :: rows =>
    .batch dev scale (mo.mean (rows.length + 1) runMean (meanOf 𝕜 (x :: rows)))
      (mo.var (rows.length + 1) runVar (meanOf 𝕜 ((x :: rows).map fun y => dev y (meanOf 𝕜 (x :: rows)))))

/-- The running statistics of an update network that has met some rows. -/
def UpdateNet.moved (𝕜 : Type) [Field 𝕜] [Module 𝕜 R] (mo : Momentum R) (u : UpdateNet R) (rows : List R) :
    UpdateNet R :=
  { u with
    norm1 := u.norm1.moved 𝕜 mo (rows.map u.lin1)
    norm2 := u.norm2.moved 𝕜 mo (rows.map fun x =>
      u.lin2 (u.act1 (u.norm1.freeze 𝕜 (rows.map u.lin1) (u.lin1 x)))) }

/-- The running statistics of a layer that has met the cells of dimension `d` of some complexes. -/
def SparseTrain.moved (mo : Momentum R) (l : SparseTrain 𝕜 R) (vs : List (View R)) (d : Nat) : SparseTrain 𝕜 R :=
  let rows := fun new => rowsOf vs { l.eval.rule with new := new } d
  let up := rows fun x u _ _ => u + (1 + l.eps1) • x
  let bnd := rows fun x _ _ b => b + (1 + l.eps2) • x
  { l with
    updateUp := l.updateUp.moved 𝕜 mo up
    updateBoundary := l.updateBoundary.moved 𝕜 mo bnd
    norm := l.norm.moved 𝕜 mo (rows fun x u _ b =>
      l.lin (l.updateUp.freeze 𝕜 up (u + (1 + l.eps1) • x)) (l.updateBoundary.freeze 𝕜 bnd (b + (1 + l.eps2) • x))) }

/-- The running statistics of a layer that has met the cells of dimension `d` of some complexes. -/
def PPTrain.moved (mo : Momentum R) (l : PPTrain 𝕜 R) (vs : List (View R)) (d : Nat) : PPTrain 𝕜 R :=
  let rows := fun new => rowsOf vs { l.eval.rule with new := new } d
  let up := rows fun x u _ _ => u + (1 + l.eps1) • x
  let down := rows fun x _ _ _ => (1 + l.eps2) • x
  let bnd := rows fun x _ _ b => b + (1 + l.eps3) • x
  { l with
    updateUp := l.updateUp.moved 𝕜 mo up
    updateDown := l.updateDown.moved 𝕜 mo down
    updateBoundary := l.updateBoundary.moved 𝕜 mo bnd
    norm := l.norm.moved 𝕜 mo (rows fun x u _ b =>
      l.lin (l.updateUp.freeze 𝕜 up (u + (1 + l.eps1) • x)) (l.updateDown.freeze 𝕜 down ((1 + l.eps2) • x))
        (l.updateBoundary.freeze 𝕜 bnd (b + (1 + l.eps3) • x))) }

/-- The layers one after the other, each with the running statistics after what it meets on the complexes. -/
def movedConvs {Lt Lv : Type} (moved : Lt → List (View R) → Nat → Lt) (freeze : Lt → List (View R) → Nat → Lv)
    (rule : Lv → Rule R) (m : Nat) : List (View R) → List (List Lt) → List (List Lt)
  | _, [] => []
  | vs, levels :: rest =>
    (levels.mapIdx fun d l => moved l vs d) :: movedConvs moved freeze rule m
      (vs.map fun v => v.layer (rulesOf rule (levels.mapIdx fun d l => freeze l vs d)) m true) rest

/-- The network with the running statistics after what it meets on the complexes. -/
def SparseNet.moved {Lt Lv : Type} (moved : Lt → List (View R) → Nat → Lt) (freeze : Lt → List (View R) → Nat → Lv)
    (rule : Lv → Rule R) (net : SparseNet R Lt) (vs : List (View R)) : SparseNet R Lt :=
  { net with convs := movedConvs moved freeze rule net.maxDim vs net.convs }

/-- Equal up to the numbering of the cells and the order of the columns: label, dimension, features and relations. -/
def Renumbered (c c' : Complex R L) : Prop :=
  c'.y = c.y ∧ c'.dimension = c.dimension ∧ ∃ φ, Relabels c.view c'.view φ

/-- The loss or score depends on the pairs of predictions and labels, not on their order. -/
def OrderFree {T : Type} (f : List R → List L → T) : Prop :=
  ∀ ps qs : List (R × L), ps.Perm qs → f (ps.map Prod.fst) (ps.map Prod.snd) = f (qs.map Prod.fst) (qs.map Prod.snd)

end

end Verif
