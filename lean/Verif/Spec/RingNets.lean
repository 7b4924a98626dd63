import Verif.Spec.GraphNets
import Verif.Model.Embed

/-!
# Specification of the networks of the ring experiments
-/

namespace Verif

variable {𝕜 R L : Type}

/-- The rows of the marked nodes, in order. -/
def picked (rows : List R) (mask : List Bool) : List R :=
  (rows.zip mask).filterMap fun rm => if rm.2 then some rm.1 else none

section
variable [AddCommMonoid R]

/-- The initial layer: vertices go through `f`, other cells keep their rows. -/
def initRules (f : R → R) (d : Nat) : Rule R where
  up x _ := x
  down x _ := x
  bnd x := x
  new x _ _ _ := if d = 0 then f x else x

/-- The rows of the vertices after the layers of a RingSparseCIN. -/
def RingNet.rows {Lv : Type} (rule : Lv → Rule R) (net : RingNet R Lv) (v : View R) : List R :=
  v.final none (v.run net.maxDim true (initRules net.initLayer :: net.convs.map (rulesOf rule))) 0

/-- The predictions of a RingSparseCIN for the marked nodes of a complex. -/
def RingNet.predict {Lv : Type} (rule : Lv → Rule R) (net : RingNet R Lv) (v : View R) (mask : List Bool) :
    List R :=
  (picked (net.rows rule v) mask).map net.lin1

/-- The network can run. -/
structure RingNet.Fits {Lv : Type} (net : RingNet R Lv) : Prop where
  layers : net.convs ≠ []
  levels : ∀ conv ∈ net.convs, conv.length = net.maxDim + 1

/-- The layers of a RingGIN: the first is followed by the nonlinearity. -/
def RingGIN.levels (net : RingGIN 𝕜 R) : List (GINLevel 𝕜 R) :=
  { net.conv1 with nn := fun x => net.act (net.conv1.nn x) } :: net.convs

/-- The predictions of a RingGIN for the marked nodes of a graph. -/
def RingGIN.predict [Field 𝕜] [Module 𝕜 R] (net : RingGIN 𝕜 R) (g : GData R) : List R :=
  let rows := ginRows g.edges (fun c => rowOf (g.x.map net.initLinear) c) net.levels
  (picked ((List.range g.x.length).map fun c => ((rows.getLast?).map fun r => r c).getD 0) g.mask).map net.lin1

end

end Verif
