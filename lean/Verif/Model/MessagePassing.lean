import Verif.Model.Complex
import Mathlib.Algebra.Field.Defs
import Mathlib.Algebra.Module.Defs
import Mathlib.Order.Lattice

/-!
# Cochain message passing (mp/cell_mp.py)

Type parameters: `F` is the type of a feature row, `A` of an attribute row, `M` of a message row.
-/

namespace Verif

variable {F A M : Type}

/-- Append `m` to the bucket of every (index, message) pair in turn. -/
def scatterLoop : List (List M) → List (Nat × M) → Py (List (List M))
  | buckets, [] => .ok buckets
  | buckets, (i, m) :: rest =>
    match buckets[i]? with
    | none => .error .index
    | some b => scatterLoop (buckets.set i (b ++ [m])) rest

/-- `torch_scatter.scatter(src, index, dim=0, dim_size=n, reduce)` (external contract, called at
mp/cell_mp.py:439-440, 458-459, 478-479): `n` buckets, message `k` goes to bucket `index[k]`, every
bucket is reduced. An index out of range is an error, and so is an index of another length than
`src`.
Simplified: torch would broadcast an index of length one; the index and the messages always come
from the same columns here. -/
def scatter (agg : List M → M) (n : Nat) (idx : List Nat) (src : List M) : Py (List M) :=
  if idx.length = src.length then do
    let buckets ← scatterLoop (List.replicate n []) (idx.zip src)
    return buckets.map agg
  else .error .runtime

/-- `reduce='add'`. -/
def aggAdd [AddCommMonoid M] (l : List M) : M := l.sum

/-- `reduce='mean'`: the sum divided by the number of rows, at least 1 (torch_scatter clamps). -/
def aggMean {𝕜 : Type} [Field 𝕜] [AddCommMonoid M] [Module 𝕜 M] (l : List M) : M :=
  ((max l.length 1 : Nat) : 𝕜)⁻¹ • l.sum

/-- `reduce='max'`: the maximum, zero for an empty bucket. -/
def aggMax [Zero M] [SemilatticeSup M] : List M → M
  | [] => 0
  | m :: l => l.foldl (· ⊔ ·) m

/-- The ways in which the message functions of the library use the attribute of a column
(mp/cell_mp.py:394-412, mp/layers.py:23-31, 94-103, 210-211, 240-241, 462-470). -/
inductive Msg (F A M : Type)
  /-- the attribute is not used -/
  | plain (f : F → M)
  /-- the attribute is needed: `torch.cat`, `+` or `*` with `None` raises `TypeError` -/
  | withAttr (f : F → A → M)
  /-- `if attr is not None: … else: …` -/
  | optAttr (f : F → M) (g : F → A → M)

/-- Combine the source rows with the attribute rows; torch raises `RuntimeError` when the numbers of
rows differ. -/
def Msg.zipAttr (f : F → A → M) (xs : List F) (as : List A) : Py (List M) :=
  if xs.length = as.length then .ok (xs.zipWith f as) else .error .runtime

/-- The message function applied to the rows of the source cells and the attribute rows. -/
def Msg.apply : Msg F A M → List F → Option (List A) → Py (List M)
  | .plain f, xs, _ => .ok (xs.map f)
  | .withAttr _, _, none => .error .type
  | .withAttr f, xs, some as => Msg.zipAttr f xs as
  | .optAttr f _, xs, none => .ok (xs.map f)
  | .optAttr _ g, xs, some as => Msg.zipAttr g xs as

/-- `self.flow` (mp/cell_mp.py:107-108). -/
inductive Flow
  | sourceToTarget | targetToSource
  deriving DecidableEq

/-- The row of the index used for `_j` (mp/cell_mp.py:210, 251, 262). -/
def Flow.j : Flow → Nat × Nat → Nat
  | .sourceToTarget, p => p.1
  | .targetToSource, p => p.2

/-- The row of the index used for `_i` and for the aggregation (mp/cell_mp.py:210, 261, 276). -/
def Flow.i : Flow → Nat × Nat → Nat
  | .sourceToTarget, p => p.2
  | .targetToSource, p => p.1

/-- The methods and flags of a `CochainMessagePassing` object (mp/cell_mp.py:81-144).
Simplified: fused kernels and sparse adjacencies are left out (no layer of the library uses them, see
`Verif.Model.Framework`),
and the message functions only take the `_j` rows and the attribute, as in all layers. -/
structure MPConfig (F A M : Type) where
  msgUp : Msg F A M
  msgDown : Msg F A M
  msgBoundary : F → M
  aggUp : List M → M
  aggDown : List M → M
  aggBoundary : List M → M
  useDown : Bool := true
  useBoundary : Bool := true
  flow : Flow := .sourceToTarget

/-- `__message_and_aggregate__` with `__collect__` and `__lift__` (mp/cell_mp.py:195-282, 324-355)
for one adjacency: the rows of `data` at the `_j` end of the columns are turned into messages and
aggregated at the `_i` end; `n` is the number of rows of `x`, which is what `__set_size__` records
(lines 224, 227, 233). `attr` is the keyword argument: `none` when it was not passed (then
`distribute` raises `TypeError`), `some none` when it was passed as `None`. -/
def messageAndAggregate (msg : Msg F A M) (agg : List M → M) (flow : Flow) (n : Nat)
    (data : List F) (index : List (Nat × Nat)) (attr : Option (Option (List A))) : Py (List M) := do
  let xj ← indexSelect data (index.map flow.j)
  match attr with
  | none => .error .type
  | some attr => do
    let msgs ← msg.apply xj attr
    scatter agg n (index.map flow.i) msgs

/-- `torch.zeros(n, size)` (mp/cell_mp.py:518-522). -/
def zeroRows [Zero M] (n : Nat) : List M := List.replicate n 0

/-- The part of `propagate` for an optional adjacency, with the default of `update`. -/
def aggregateOrZero [Zero M] (msg : Msg F A M) (agg : List M → M) (flow : Flow) (n : Nat)
    (data : List F) (index : Option (List (Nat × Nat))) (attr : Option (Option (List A))) :
    Py (List M) :=
  match index with
  | some index => messageAndAggregate msg agg flow n data index attr
  | none => .ok (zeroRows n)

/-- The boundary part of `propagate` (mp/cell_mp.py:379-382): run iff boundary attributes are given,
also when the incidence is `None` (then `distribute` raises `TypeError`). -/
def aggregateBoundary [Zero M] (msg : F → M) (agg : List M → M) (flow : Flow) (n : Nat)
    (attr : Option (List F)) (index : Option (List (Nat × Nat))) : Py (List M) :=
  match attr, index with
  | none, _ => .ok (zeroRows n)
  | some _, none => .error .type
  | some data, some index =>
    messageAndAggregate (A := Unit) (.plain msg) agg flow n data index (some none)

/-- `propagate` (mp/cell_mp.py:357-392) followed by `update` (lines 511-524). `upAttr` and `downAttr`
are keyword arguments (see `messageAndAggregate`).
Simplified: with `x=None` the code fails in one of several places; the model raises
`AttributeError`. -/
def propagate [Zero M] (cfg : MPConfig F A M)
    (upIndex downIndex boundaryIndex : Option (List (Nat × Nat))) (x : Option (List F))
    (upAttr downAttr : Option (Option (List A))) (boundaryAttr : Option (List F)) :
    Py (List M × List M × List M) :=
  match x with
  | none => .error .attribute
  | some x => do
    let up ← aggregateOrZero cfg.msgUp cfg.aggUp cfg.flow x.length x upIndex upAttr
    let down ← aggregateOrZero cfg.msgDown cfg.aggDown cfg.flow x.length x
      (if cfg.useDown then downIndex else none) downAttr
    let boundary ← aggregateBoundary cfg.msgBoundary cfg.aggBoundary cfg.flow x.length
      (if cfg.useBoundary then boundaryAttr else none) boundaryIndex
    return (up, down, boundary)

end Verif
