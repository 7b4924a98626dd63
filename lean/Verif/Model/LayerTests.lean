import Verif.Model.Embed
import Verif.Model.Lifting

/-!
# The tests of the initial layers

mp/test_layers.py:135-175
-/

namespace Verif

variable {R L : Type}

/-- `params[1].x = None` and `params[2].x = None` (mp/test_layers.py:161-163). -/
def hideFeatures : List (MPParams R) → Py (List (MPParams R))
  | v :: e :: t :: rest => .ok (v :: { e with x := none } :: { t with x := none } :: rest)
  | _ => .error .index

/-- `cochains[dim].num_cells` (mp/test_layers.py:169, 171, 173). -/
def cellsAt (comp : Complex R L) (dim : Nat) : Py (Option Nat) :=
  match comp.cochains[dim]? with
  | none => .error .key
  | some c => c.numCells

/-- `xs[dim].size(0) == cochains[dim].num_cells` (mp/test_layers.py:169, 171, 173). A number is not `None`. -/
def checkRows (comp : Complex R L) (xs : List (List R)) (dim : Nat) : Py Unit := do
  let x ← getAt xs dim
  let n ← cellsAt comp dim
  pyAssert (decide (some x.length = n))

/-- `test_embed_with_reduce_layer_on_house_complex` (mp/test_layers.py:152-174), for one complex and the `forward` of one layer.
The widths (lines 170, 172, 174) are left out. -/
def embedReduceTest (forward : List (MPParams R) → Py (List (List R))) (comp : Complex R L) : Py Unit := do
  let ps ← comp.getAllCochainParams
  let ps ← hideFeatures ps
  let xs ← forward ps
  pyAssert (xs.length == 3)
  checkRows comp xs 0
  checkRows comp xs 1
  checkRows comp xs 2

/-- The calls of test_init_reduce_conv_on_house_complex (mp/test_layers.py:135-149): the rows of dimension `dim` reduced
along the boundary of dimension `dim + 1`. -/
def reduceFrom (agg : List R → R) (comp : Complex R L) (dim : Nat) : Py (List R) := do
  let p ← comp.getCochainParams dim
  let q ← comp.getCochainParams (dim + 1)
  match p.x with
  | none => .error .type
  | some x => initReduce agg x q.boundaryIndex

end Verif
