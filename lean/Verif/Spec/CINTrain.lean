import Verif.Model.CINTrain
import Verif.Spec.TrainMode

/-!
# What CIN0 computes in training mode: evaluation with the statistics of the batch, also of its messages
-/

namespace Verif

variable {𝕜 R L : Type}

/-- The number of upper adjacencies of dimension `d` of some complexes. -/
def upCount (vs : List (View R)) (d : Nat) : Nat := (vs.map fun v => (v.up d).length).sum

/-- The number of lower adjacencies of dimension `d` of some complexes. -/
def downCount (vs : List (View R)) (d : Nat) : Nat := (vs.map fun v => (v.down d).length).sum

/-- The number of cells of dimension `d` of some complexes. -/
def cellCount (vs : List (View R)) (d : Nat) : Nat := (vs.map fun v => (v.X d).length).sum

/-- A batch normalisation of the layer gets exactly one row: one upper message, one lower message or one cell. -/
def CINTrain.OneRow (l : CINTrain 𝕜 R) (vs : List (View R)) (d : Nat) : Prop :=
  (l.upNorm.isBatch = true ∧ upCount vs d = 1) ∨ (l.downNorm.isBatch = true ∧ downCount vs d = 1) ∨
    (l.norm.isBatch = true ∧ cellCount vs d = 1)

/-- Some layer of the network gets exactly one row to normalise. -/
def CINNet.LonelyRow (net : CINNet R (CINTrain 𝕜 R)) (vs : List (View R)) : Prop :=
  ∃ conv ∈ net.convs, ∃ (d : Nat) (l : CINTrain 𝕜 R), conv[d]? = some l ∧ l.OneRow vs d

section
variable [Field 𝕜] [AddCommMonoid R] [Module 𝕜 R]

/-- All upper messages of dimension `d` of some complexes. -/
def upRows (vs : List (View R)) (f : R → R → R) (d : Nat) : List R :=
  vs.flatMap fun v => (v.up d).map fun p => f (rowOf (v.X d) p.1.1) (rowOf (v.X (d + 1)) p.2)

/-- All lower messages of dimension `d` of some complexes. -/
def downRows (vs : List (View R)) (f : R → R → R) (d : Nat) : List R :=
  vs.flatMap fun v => (v.down d).map fun p => f (rowOf (v.X d) p.1.1) (rowOf (v.below d) p.2)

/-- The layer with the statistics of the messages and cells of dimension `d` of some complexes. -/
def CINTrain.freeze (l : CINTrain 𝕜 R) (vs : List (View R)) (d : Nat) : CINLevel 𝕜 R :=
  let up := l.upNorm.freeze 𝕜 (upRows vs l.up d)
  let down := l.downNorm.freeze 𝕜 (downRows vs l.down d)
  let before : CINLevel 𝕜 R :=
    { msgUpAlone := fun x => up (l.upAlone x)
      msgUp := fun x a => up (l.up x a)
      msgDown := fun x a => down (l.down x a)
      update := l.pre
      eps := l.eps }
  { before with update := fun x => l.norm.freeze 𝕜 (rowsOf vs before.rule d) (l.pre x) }

/-- The network with the statistics that it meets on the complexes. -/
def CINNet.frozen {Lt Lv : Type} (freeze : Lt → List (View R) → Nat → Lv) (rule : Lv → Rule R)
    (net : CINNet R Lt) (vs : List (View R)) : CINNet R Lv where
  convs := freezeConvs freeze rule net.maxDim vs net.convs
  maxDim := net.maxDim
  jump := net.jump
  readout := net.readout
  act := net.act
  lin1 := net.lin1
  lin2 := net.lin2

end

end Verif
