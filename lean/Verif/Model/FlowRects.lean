import Verif.Model.FlowData

/-!
# The rectangles of the flow dataset

data/datasets/flow_utils.py:14-15, 259-263, 291-292
-/

namespace Verif

variable {K : Type}

/-- A rectangle: an array of its lower and its upper corner. -/
structure Rect (K : Type) where
  lo : K × K
  hi : K × K

/-- `is_inside_rectangle` (data/datasets/flow_utils.py:14-15). -/
def isInsideRectangle [LE K] [DecidableLE K] (rect : Rect K) (x : K × K) : Bool :=
  (decide (rect.lo.1 ≤ x.1) && decide (x.1 ≤ rect.hi.1)) && (decide (rect.lo.2 ≤ x.2) && decide (x.2 ≤ rect.hi.2))

/-- The numbers `0.0`, `0.2`, `0.4`, `0.6`, `0.8` and `1.0` of the code. They are kept abstract: only their order matters, so
that no rounding is left out. -/
structure Marks (K : Type) where
  m0 : K
  m2 : K
  m4 : K
  m6 : K
  m8 : K
  m10 : K

/-- `start_rect` (data/datasets/flow_utils.py:259). -/
def startRect (m : Marks K) : Rect K := ⟨(m.m0, m.m8), (m.m2, m.m10)⟩
/-- `end_rect` (data/datasets/flow_utils.py:260). -/
def endRect (m : Marks K) : Rect K := ⟨(m.m8, m.m0), (m.m10, m.m2)⟩
/-- `bot_ckpt_rect` (data/datasets/flow_utils.py:261). -/
def botCkptRect (m : Marks K) : Rect K := ⟨(m.m0, m.m0), (m.m2, m.m2)⟩
/-- `top_ckpt_rect` (data/datasets/flow_utils.py:262). -/
def topCkptRect (m : Marks K) : Rect K := ⟨(m.m8, m.m8), (m.m10, m.m10)⟩
/-- `hole1` (data/datasets/flow_utils.py:291). -/
def hole1Rect (m : Marks K) : Rect K := ⟨(m.m2, m.m2), (m.m4, m.m4)⟩
/-- `hole2` (data/datasets/flow_utils.py:292). -/
def hole2Rect (m : Marks K) : Rect K := ⟨(m.m6, m.m6), (m.m8, m.m8)⟩

/-- The regions of `load_flow_dataset` (data/datasets/flow_utils.py:259-263, 291-292). -/
def flowRects [LE K] [DecidableLE K] (m : Marks K) : FlowRegions (K × K) where
  start := isInsideRectangle (startRect m)
  stop := isInsideRectangle (endRect m)
  bot := isInsideRectangle (botCkptRect m)
  top := isInsideRectangle (topCkptRect m)
  hole1 := isInsideRectangle (hole1Rect m)
  hole2 := isInsideRectangle (hole2Rect m)

end Verif
