import Verif.Model.Framework

/-!
# Specification vocabulary for the message passing framework
-/

namespace Verif

variable {R : Type}

/-- `out` holds the rows of `rows` at the positions `idx`. -/
def Gathers (rows : List R) (idx : List Nat) (out : List R) : Prop :=
  out.length = idx.length ∧
    ∀ k i : Nat, idx[k]? = some i → ∃ r, rows[i]? = some r ∧ out[k]? = some r

/-- The name of a parameter for the rows of the sending cells: `up_x_j` for `x`. -/
def senderName (a : AdjKind) (key : String) : String := a.str ++ "_" ++ key ++ "_j"

/-- The name of a parameter for the rows of the receiving cells: `up_x_i` for `x`. -/
def receiverName (a : AdjKind) (key : String) : String := a.str ++ "_" ++ key ++ "_i"

/-- The name ends in `_i` or `_j`. -/
def Lifted (name : String) : Prop := (∃ k, name = k ++ "_i") ∨ ∃ k, name = k ++ "_j"

/-- A sparse matrix as `torch_sparse` keeps it: entries sorted by row and in range. -/
structure SparseAdj.Valid (t : SparseAdj R) : Prop where
  sorted : (t.entries.map Prod.fst).Pairwise (· ≤ ·)
  inRange : ∀ p ∈ t.entries, p.1 < t.rows ∧ p.2 < t.cols

/-- The columns (sender, receiver) that a sparse matrix with rows for the receivers stands for. -/
def SparseAdj.edges (t : SparseAdj R) : List (Nat × Nat) := t.entries.map fun p => (p.2, p.1)

/-- The class or one of its bases, other than `CochainMessagePassing` and what is only reachable
through it, defines the method. -/
inductive Overrides (f : String) : PyClass → Prop
  | here {name : String} {dict : List String} {bases : List PyClass} :
      name ≠ "CochainMessagePassing" → f ∈ dict → Overrides f (.mk name dict bases)
  | base {name : String} {dict : List String} {bases : List PyClass} {c : PyClass} :
      name ≠ "CochainMessagePassing" → c ∈ bases → Overrides f c → Overrides f (.mk name dict bases)

/-- The keyword arguments that the layers of the library pass to `propagate`: `x`, the attributes
(not passed at all, `None`, or a matrix), and the boundary features (`None` or not passed, or a
matrix). -/
structure Passes (kwargs : ArgDict R) (x : List R) (upAttr downAttr : Option (Option (List R)))
    (boundaryAttr : Option (List R)) : Prop where
  x : kwargs "x" = some (.tensor x)
  up : kwargs "up_attr" = upAttr.map optTensor
  down : kwargs "down_attr" = downAttr.map optTensor
  boundary : ∀ b, boundaryAttr = some b → kwargs "boundary_attr" = some (.tensor b)
  noBoundary : boundaryAttr = none → kwargs "boundary_attr" = none ∨ kwargs "boundary_attr" = some .none

/-- The three sets of arguments of an object, each in some order. -/
structure Orders (o : MPObject R) (user fused upd : List String) : Prop where
  user : user.Perm o.userArgs
  fused : fused.Perm o.fusedArgs
  upd : upd.Perm o.updateArgs

/-- A dense index or `None`. -/
def denseOf : Option (List (Nat × Nat)) → Adj R
  | none => .none
  | some cols => .dense cols

/-- A sparse index or `None`. -/
def sparseOf : Option (SparseAdj R) → Adj R
  | none => .none
  | some t => .sparse t

end Verif
