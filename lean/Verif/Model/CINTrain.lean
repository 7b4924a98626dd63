import Verif.Model.TrainMode

/-!
# CIN0 in training mode (mp/models.py:20-103)

`CIN0` normalises the messages too: its message networks end with a batch normalisation, which is applied to the
rows of all messages of one kind in one dimension. As in `Verif.Model.TrainMode`, the dropout rate is 0.
-/

namespace Verif

variable {𝕜 R L : Type}

/-- A `CINCochainConv` with the networks that `CIN0` builds (mp/models.py:34-50). `up x a` is the linear map of
`conv_up` on `cat([x, a])` followed by the nonlinearity, `upAlone x` the same on a row without attribute
(mp/layers.py:94-99), `upNorm` the normalisation; `down` and `downNorm` are those of `conv_down`, `pre` and `norm`
those of `conv_update`, whose two linear maps and nonlinearities are one function of a row.
Simplified: the normalisation may also act on each row by itself (the code always takes `BatchNorm1d`). -/
structure CINTrain (𝕜 R : Type) where
  upAlone : R → R
  up : R → R → R
  upNorm : NormNet R
  down : R → R → R
  downNorm : NormNet R
  pre : R → R
  norm : NormNet R
  eps : 𝕜

/-- The layer in evaluation mode. -/
def CINTrain.eval (l : CINTrain 𝕜 R) : CINLevel 𝕜 R where
  msgUpAlone x := l.upNorm.eval (l.upAlone x)
  msgUp x a := l.upNorm.eval (l.up x a)
  msgDown x a := l.downNorm.eval (l.down x a)
  update x := l.norm.eval (l.pre x)
  eps := l.eps

section
variable [Field 𝕜] [AddCommMonoid R] [Module 𝕜 R]

/-- The part of `propagate` (mp/cell_mp.py:357-392) for one adjacency, in training mode: the rows at the sources
of the columns become messages, all messages are normalised together, then summed at the targets; without an
adjacency, zeros (lines 511-524). -/
def aggregateTrain (𝕜 : Type) [Field 𝕜] [Module 𝕜 R] (msg : Msg R R R) (norm : NormNet R) (x : List R)
    (index : Option (List (Nat × Nat))) (attr : Option (List R)) : Py (List R) :=
  match index with
  | none => .ok (zeroRows x.length)
  | some index => do
    let xj ← indexSelect x (index.map Prod.fst)
    let msgs ← msg.apply xj attr
    let msgs ← norm.train 𝕜 msgs
    scatter aggAdd x.length (index.map Prod.snd) msgs

/-- `CINCochainConv.forward` (mp/layers.py:78-86) in training mode. -/
def CINTrain.forward (l : CINTrain 𝕜 R) (p : MPParams R) : Py (List R) :=
  match p.x with
  | none => .error .attribute
  | some x => do
    let up ← aggregateTrain 𝕜 (.optAttr l.upAlone l.up) l.upNorm x p.upIndex p.upAttr
    let down ← aggregateTrain 𝕜 (.withAttr l.down) l.downNorm x p.downIndex p.downAttr
    let up ← addScaled l.eps up x
    let down ← addScaled l.eps down x
    let s ← zipRows (· + ·) up down
    l.norm.train 𝕜 (s.map l.pre)

end

/-- `CIN0` in evaluation mode. -/
def CINNet.evalMode {Lt Lv : Type} (eval : Lt → Lv) (net : CINNet R Lt) : CINNet R Lv where
  convs := net.convs.map (List.map eval)
  maxDim := net.maxDim
  jump := net.jump
  readout := net.readout
  act := net.act
  lin1 := net.lin1
  lin2 := net.lin2

end Verif
