import Verif.Model.MessagePassing

/-!
# Convolution layers (mp/layers.py)

`R` is the type of rows. Rows of all widths are members of one type (for example sequences padded
with zeros); a learned map followed by or preceded by `torch.cat(…, dim=-1)` is a function of
several rows. Learned maps are arbitrary functions on rows: this covers linear maps, activations,
layer normalisation, batch normalisation in evaluation mode and embeddings. `𝕜` is the type of
scalars. `reset_parameters` is not modelled.
-/

namespace Verif

variable {𝕜 R : Type}

/-- An elementwise or concatenating operation on two matrices with one row per cell; torch raises
`RuntimeError` when the numbers of rows differ.
Simplified: torch would broadcast a single row; both operands always have one row per cell. -/
def zipRows (f : R → R → R) (a b : List R) : Py (List R) :=
  if a.length = b.length then .ok (a.zipWith f b) else .error .runtime

/-- `out + (1 + eps) * x` (mp/layers.py:84-85, 191-192, 250-252). -/
def addScaled [Field 𝕜] [AddCommMonoid R] [Module 𝕜 R] (eps : 𝕜) (out x : List R) : Py (List R) :=
  zipRows (fun o r => o + (1 + eps) • r) out x

/-- The parameters of a `CINCochainConv` (mp/layers.py:62-76). `msgUpAlone r` is
`msg_up_nn(r)`, `msgUp r a` is `msg_up_nn(cat([r, a]))`. -/
structure CINLevel (𝕜 R : Type) where
  msgUpAlone : R → R
  msgUp : R → R → R
  msgDown : R → R → R
  update : R → R
  eps : 𝕜

/-- The message passing of `CINCochainConv` (mp/layers.py:67, 94-103). -/
def CINLevel.cfg [AddCommMonoid R] (l : CINLevel 𝕜 R) : MPConfig R R R where
  msgUp := .optAttr l.msgUpAlone l.msgUp
  msgDown := .withAttr l.msgDown
  msgBoundary := id
  aggUp := aggAdd
  aggDown := aggAdd
  aggBoundary := aggAdd
  useBoundary := false

/-- `CINCochainConv.forward` (mp/layers.py:78-86). -/
def CINLevel.forward [Field 𝕜] [AddCommMonoid R] [Module 𝕜 R] (l : CINLevel 𝕜 R)
    (p : MPParams R) : Py (List R) := do
  let out ← propagate l.cfg p.upIndex p.downIndex none p.x (some p.upAttr) (some p.downAttr) none
  let x := p.x.getD []
  let up ← addScaled l.eps out.1 x
  let down ← addScaled l.eps out.2.1 x
  let s ← zipRows (· + ·) up down
  return s.map l.update

/-- The parameters of a `SparseCINCochainConv` (mp/layers.py:156-182). The upper message network gets
the pair of the source row and the attribute (line 211): it either ignores the attribute
(`lambda xs: xs[0]`, line 295) or concatenates (`Catter`, lines 290-293), which needs it.
`combine u b` is `combine_nn(cat([u, b]))`. -/
structure SparseLevel (𝕜 R : Type) where
  msgUp : Msg R R R
  msgBoundary : R → R
  updateUp : R → R
  updateBoundary : R → R
  combine : R → R → R
  eps1 : 𝕜
  eps2 : 𝕜

/-- The message passing of `SparseCINCochainConv` (mp/layers.py:167-168, 210-214). -/
def SparseLevel.cfg [AddCommMonoid R] (l : SparseLevel 𝕜 R) : MPConfig R R R where
  msgUp := l.msgUp
  msgDown := .plain id
  msgBoundary := l.msgBoundary
  aggUp := aggAdd
  aggDown := aggAdd
  aggBoundary := aggAdd
  useDown := false

/-- `SparseCINCochainConv.forward` (mp/layers.py:184-199). -/
def SparseLevel.forward [Field 𝕜] [AddCommMonoid R] [Module 𝕜 R] (l : SparseLevel 𝕜 R)
    (p : MPParams R) : Py (List R) := do
  let out ← propagate l.cfg p.upIndex p.downIndex p.boundaryIndex p.x (some p.upAttr) none
    p.boundaryAttr
  let x := p.x.getD []
  let up ← addScaled l.eps1 out.1 x
  let bnd ← addScaled l.eps2 out.2.2 x
  zipRows l.combine (up.map l.updateUp) (bnd.map l.updateBoundary)

/-- The parameters of a `CINppCochainConv` (mp/layers.py:216-237). `combine u d b` is
`combine_nn(cat([u, d, b]))`. -/
structure PPLevel (𝕜 R : Type) where
  msgUp : Msg R R R
  msgDown : Msg R R R
  msgBoundary : R → R
  updateUp : R → R
  updateDown : R → R
  updateBoundary : R → R
  combine : R → R → R → R
  eps1 : 𝕜
  eps2 : 𝕜
  eps3 : 𝕜

/-- The message passing of `CINppCochainConv`: it inherits `use_down_msg=False` from the constructor
of `SparseCINCochainConv` (mp/layers.py:167-168, 223-226). -/
def PPLevel.cfg [AddCommMonoid R] (l : PPLevel 𝕜 R) : MPConfig R R R where
  msgUp := l.msgUp
  msgDown := l.msgDown
  msgBoundary := l.msgBoundary
  aggUp := aggAdd
  aggDown := aggAdd
  aggBoundary := aggAdd
  useDown := false

/-- `CINppCochainConv.forward` (mp/layers.py:243-260). `propagate` is called without `down_attr`. -/
def PPLevel.forward [Field 𝕜] [AddCommMonoid R] [Module 𝕜 R] (l : PPLevel 𝕜 R)
    (p : MPParams R) : Py (List R) := do
  let out ← propagate l.cfg p.upIndex p.downIndex p.boundaryIndex p.x (some p.upAttr) none
    p.boundaryAttr
  let x := p.x.getD []
  let up ← addScaled l.eps1 out.1 x
  let down ← addScaled l.eps2 out.2.1 x
  let bnd ← addScaled l.eps3 out.2.2 x
  let ud ← zipRowsWith Prod.mk (up.map l.updateUp) (down.map l.updateDown)
  zipRowsWith (fun ud b => l.combine ud.1 ud.2 b) ud (bnd.map l.updateBoundary)
where
  /-- `zipRows` with operands of different types. -/
  zipRowsWith {A B C : Type} (f : A → B → C) (a : List A) (b : List B) : Py (List C) :=
    if a.length = b.length then .ok (a.zipWith f b) else .error .runtime

/-- The flags of a `DummyCochainMessagePassing` (mp/layers.py:14-20, 44-51). -/
structure DummyLevel where
  useDown : Bool := true
  useBoundary : Bool := false

/-- The message passing of `DummyCochainMessagePassing` (mp/layers.py:22-31). -/
def DummyLevel.cfg [AddCommMonoid R] (l : DummyLevel) : MPConfig R R R where
  msgUp := .withAttr (· + ·)
  msgDown := .withAttr (· + ·)
  msgBoundary := id
  aggUp := aggAdd
  aggDown := aggAdd
  aggBoundary := aggAdd
  useDown := l.useDown
  useBoundary := l.useBoundary

/-- `DummyCochainMessagePassing.forward` (mp/layers.py:33-40). -/
def DummyLevel.forward [AddCommMonoid R] (l : DummyLevel) (p : MPParams R) : Py (List R) := do
  let out ← propagate l.cfg p.upIndex p.downIndex p.boundaryIndex p.x (some p.upAttr)
    (some p.downAttr) p.boundaryAttr
  let s ← zipRows (· + ·) (p.x.getD []) out.1
  let s ← zipRows (· + ·) s out.2.1
  zipRows (· + ·) s out.2.2

/-- The loop over the dimensions in `forward` of the convolutions; `mp_levels[dim]` beyond the end
raises `IndexError`. -/
def convLoop {Lv : Type} (forward : Lv → MPParams R → Py (List R)) :
    List Lv → List (MPParams R) → Py (List (List R))
  | _, [] => .ok []
  | [], _ :: _ => .error .index
  | level :: levels, p :: ps => do
    let out ← forward level p
    let rest ← convLoop forward levels ps
    return out :: rest

/-- `forward` of `CINConv`, `EdgeCINConv`, `SparseCINConv`, `CINppConv` and
`DummyCellularMessagePassing` (mp/layers.py:53-59, 118-124, 145-151, 333-342): `levels` are the
`max_dim + 1` entries of `mp_levels` (lines 47-51, 112-116, 143, 285-331, 360-427).
Simplified: `start_to_process` is 0, its value in all calls of the library (mp/models.py:201,
mp/molec_models.py:112, 298). -/
def convForward {Lv : Type} (forward : Lv → MPParams R → Py (List R)) (levels : List Lv)
    (ps : List (MPParams R)) : Py (List (List R)) := do
  pyAssert (decide (ps.length ≤ levels.length))
  convLoop forward levels ps

end Verif
