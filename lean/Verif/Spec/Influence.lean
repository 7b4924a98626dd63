import Verif.Spec.CellNet

/-!
# Specification: which parts of a network can influence its predictions
-/

namespace Verif

variable {𝕜 R : Type}

/-- Level `d` of layer `i` of `n` layers is close enough to a dimension that is read out: each layer after
it carries information at most one dimension up or down. -/
def InRange (dims : List Nat) (n i d : Nat) : Prop :=
  ∃ r ∈ dims, d + (i + 1) ≤ r + n ∧ r + (i + 1) ≤ d + n

/-- Two levels of SparseCIN with the same networks, except perhaps for the one on upper messages if the
level is a top one. -/
structure SparseLevel.Alike (top : Prop) (l l' : SparseLevel 𝕜 R) : Prop where
  msgUp : ¬ top → l'.msgUp = l.msgUp
  msgBoundary : l'.msgBoundary = l.msgBoundary
  updateUp : l'.updateUp = l.updateUp
  updateBoundary : l'.updateBoundary = l.updateBoundary
  combine : l'.combine = l.combine
  eps1 : l'.eps1 = l.eps1
  eps2 : l'.eps2 = l.eps2

/-- Two levels of CIN++ with the same networks, except for the one on lower messages and perhaps for the
one on upper messages if the level is a top one. -/
structure PPLevel.Alike (top : Prop) (l l' : PPLevel 𝕜 R) : Prop where
  msgUp : ¬ top → l'.msgUp = l.msgUp
  msgBoundary : l'.msgBoundary = l.msgBoundary
  updateUp : l'.updateUp = l.updateUp
  updateDown : l'.updateDown = l.updateDown
  updateBoundary : l'.updateBoundary = l.updateBoundary
  combine : l'.combine = l.combine
  eps1 : l'.eps1 = l.eps1
  eps2 : l'.eps2 = l.eps2
  eps3 : l'.eps3 = l.eps3

/-- Two networks that differ only where it does not matter: in the dense layers of dimensions that are not
read out; if there is no jumping knowledge, in levels that are out of range; and as `alike` allows. The
dimensions from `t` on are top ones. -/
structure SparseNet.Alike {Lv : Type} (alike : Prop → Lv → Lv → Prop) (t : Nat) (net net' : SparseNet R Lv) :
    Prop where
  maxDim : net'.maxDim = net.maxDim
  jump : net'.jump = net.jump
  readout : net'.readout = net.readout
  readoutDims : net'.readoutDims = net.readoutDims
  act : net'.act = net.act
  lin1s : ∀ d ∈ net.dims, net'.lin1s[d]? = net.lin1s[d]?
  finalReadout : net'.finalReadout = net.finalReadout
  lin2 : net'.lin2 = net.lin2
  layers : net'.convs.length = net.convs.length
  levels : ∀ (i d : Nat) (ls ls' : List Lv) (l l' : Lv), net.convs[i]? = some ls → net'.convs[i]? = some ls' →
    ls[d]? = some l → ls'[d]? = some l' → net.jump ≠ none ∨ InRange net.dims net.convs.length i d →
    alike (t ≤ d) l l'

end Verif
