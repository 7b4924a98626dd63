import Verif.Model.Models

/-!
# Oriented convolutions and edge-flow networks (mp/layers.py:430-470, mp/models.py:476-615)

Rows are members of an additive group; the orientations are integers, and the product of a row with an
orientation is the integer multiple. Learned maps are arbitrary functions on rows.
-/

namespace Verif

variable {𝕜 R L : Type}

/-- The parameters of an `OrientedConv` (mp/layers.py:431-441). -/
structure OrientedLevel (R : Type) where
  updateUp : R → R
  updateDown : R → R
  update : R → R
  act : R → R
  orient : Bool := true

/-- The message passing of an `OrientedConv` (mp/layers.py:434, 462-470): the orientation of the column
is passed as its attribute. -/
def OrientedLevel.cfg [AddCommGroup R] (l : OrientedLevel R) : MPConfig R Int R where
  msgUp := if l.orient then .withAttr (fun x o => o • x) else .plain id
  msgDown := if l.orient then .withAttr (fun x o => o • x) else .plain id
  msgBoundary := id
  aggUp := aggAdd
  aggDown := aggAdd
  aggBoundary := aggAdd
  useBoundary := false

/-- `assert len(orient) == index.size(1)` (mp/layers.py:444-445): `len(None)` raises `TypeError`,
`None.size` raises `AttributeError`. -/
def checkOrient (orient : Option (List Int)) (index : Option (List (Nat × Nat))) :
    Py (List Int × List (Nat × Nat)) :=
  match orient, index with
  | none, _ => .error .type
  | some _, none => .error .attribute
  | some o, some i => if o.length = i.length then .ok (o, i) else .error .assertion

/-- `assert index.max() < len(x)` (mp/layers.py:446-447); an empty index raises `RuntimeError`. -/
def checkRange (index : List (Nat × Nat)) (n : Nat) : Py Unit :=
  match (index.flatMap fun p => [p.1, p.2]).max? with
  | none => .error .runtime
  | some m => pyAssert (decide (m < n))

/-- `OrientedConv.forward` (mp/layers.py:443-455). -/
def OrientedLevel.forward [AddCommGroup R] (l : OrientedLevel R) (c : Cochain R L) :
    Py (List R) := do
  let up ← checkOrient c.upperOrient c.upperIndex
  let down ← checkOrient c.lowerOrient c.lowerIndex
  match c.x with
  | none => .error .type
  | some x => do
    checkRange up.2 x.length
    checkRange down.2 x.length
    let out ← propagate l.cfg (some up.2) (some down.2) none (some x) (some (some up.1))
      (some (some down.1)) none
    let s ← zipRows (· + ·) (x.map l.update) (out.1.map l.updateUp)
    let s ← zipRows (· + ·) s (out.2.1.map l.updateDown)
    return s.map l.act

/-- The parameters of `EdgeOrient` and `EdgeMPNN` (mp/models.py:481-511, 554-582); in `EdgeMPNN` the
`updateUp` of the layers is constantly zero (line 569). `abs` is `torch.abs`, `relu` is `torch.relu`. -/
structure OrientNet (R : Type) where
  convs : List (OrientedLevel R)
  fullyInvar : Bool := false
  readout : String := "sum"
  abs : R → R
  relu : R → R
  lin1 : R → R
  lin2 : R → R

/-- The loop over the layers (mp/models.py:525-527, 593-595): the last output, `none` when there was no
layer. -/
def runOriented [AddCommGroup R] : Cochain R L → List (OrientedLevel R) →
    Py (Cochain R L × Option (List R))
  | data, [] => .ok (data, none)
  | data, l :: ls => do
    let x ← l.forward data
    let data ← data.setX (some x)
    let rest ← runOriented data ls
    return (rest.1, some (rest.2.getD x))

/-- `data.x = torch.abs(data.x)` if `fully_invar` (mp/models.py:523-524, 591-592). -/
def OrientNet.prepare (net : OrientNet R) (data : Cochain R L) : Py (Cochain R L) :=
  if net.fullyInvar then
    match data.x with
    | none => .error .type
    | some x => data.setX (some (x.map net.abs))
  else .ok data

/-- `EdgeOrient.forward` and `EdgeMPNN.forward` (mp/models.py:522-546, 590-615); without layers `x` is
unbound. Simplified: dropout and `include_partial` are left out. -/
def OrientNet.forward (𝕜 : Type) [Field 𝕜] [AddCommGroup R] [Module 𝕜 R] (net : OrientNet R)
    (data : Cochain R L) : Py (List R) := do
  let data ← net.prepare data
  let out ← runOriented data net.convs
  match out.2 with
  | none => .error .name
  | some x =>
    match out.1.batch with
    | none => .error .attribute
    | some b => do
      let n ← Cochain.maxPlusOne b
      let x := if net.fullyInvar then x else x.map net.abs
      let pool ← getPoolingFn net.readout
      let pooled ← scatter (pool.agg 𝕜) n b x
      return pooled.map fun r => net.lin2 (net.relu (net.lin1 r))

end Verif
