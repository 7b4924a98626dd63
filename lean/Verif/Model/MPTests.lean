import Verif.Model.Layers

/-!
# The tests of message passing (mp/test_cell_mp.py)
-/

namespace Verif

variable {R L : Type} [AddCommMonoid R]

/-- `CochainMessagePassing(up_msg_size=1, down_msg_size=1)` with the defaults of the constructor (mp/cell_mp.py:81-97) and
the message functions of the class itself (lines 394-424), which return the rows of the source cells. -/
def baseConfig : MPConfig R R R where
  msgUp := .plain id
  msgDown := .plain id
  msgBoundary := id
  aggUp := aggAdd
  aggDown := aggAdd
  aggBoundary := aggAdd

/-- The call of `propagate` in the tests (mp/test_cell_mp.py:22-28, 46-52, 75-81, 201-207): everything there is in the
parameters of one dimension is passed. -/
def baseMessages (p : MPParams R) : Py (List R × List R × List R) :=
  propagate baseConfig p.upIndex p.downIndex p.boundaryIndex p.x (some p.upAttr) (some p.downAttr) p.boundaryAttr

/-- Row `i`, zero when there is none. -/
def pygRow (x : List R) (i : Nat) : R := (x[i]?).getD 0

/-- `MessagePassing().propagate(edge_index, x=x)` of torch_geometric (external contract, called at mp/test_cell_mp.py:121-122,
147-148, 169-170): every vertex gets the sum of the rows of the sources of the columns that end in it.
Simplified: for indices that are in range. -/
def pygPropagate (edges : List (Nat × Nat)) (x : List R) : List R :=
  (List.range x.length).map fun i => ((edges.filter fun e => e.2 == i).map fun e => pygRow x e.1).sum

/-- `cmp.propagate(up_index=params.up_index, down_index=None, boundary_index=None, x=params.x, up_attr=None)`
(mp/test_cell_mp.py:131-132, 155-156, 177-178). -/
def upMessagesOnly (p : MPParams R) : Py (List R × List R × List R) :=
  propagate baseConfig p.upIndex none none p.x (some none) none none

/-- The comparison of test_smp_messaging_with_isolated_nodes (mp/test_cell_mp.py:118-134), for one complex. The comparison of
the messages to the single vertices (lines 126-128) is left out. -/
def isolatedTest [DecidableEq R] (comp : Complex R L) : Py Unit := do
  let p ← comp.getCochainParams 0
  let out ← upMessagesOnly p
  match p.upIndex, p.x with
  | some edges, some x => do
    pyAssert (pygPropagate edges x == out.1)
    pyAssert (out.2.1 == zeroRows out.2.1.length)
  | _, _ => .error .attribute

/-- The comparison of test_cmp_messaging_with_isolated_node_only and of the test with two nodes (mp/test_cell_mp.py:141-157,
164-180): the graph is given without edges. -/
def isolatedOnlyTest [DecidableEq R] (comp : Complex R L) : Py Unit := do
  let p ← comp.getCochainParams 0
  match p.x with
  | none => .error .attribute
  | some x => do
    pyAssert (pygPropagate [] x == zeroRows x.length)
    let out ← upMessagesOnly p
    pyAssert (pygPropagate [] x == out.1)

end Verif
