import Verif.Spec.Complex
import Verif.Model.Layers

/-!
# Specification of layers and networks on complexes

A *view* of a complex forgets how it is stored: feature rows per dimension, adjacency columns with the
shared cell, incidence columns. Layers and networks are specified on views, cell by cell. Nothing here
is used by the model of the code.
-/

namespace Verif

variable {R L : Type}

/-- Feature rows, upper and lower adjacency columns ((source, target), shared cell), and incidence
columns (boundary cell, cell), per dimension. -/
structure View (R : Type) where
  X : Nat → List R
  up : Nat → List ((Nat × Nat) × Nat)
  down : Nat → List ((Nat × Nat) × Nat)
  bnd : Nat → List (Nat × Nat)

/-- The view of a complex. Upper adjacencies count only when the dimension above is there (it carries
the shared cells); the vertices have nothing below. -/
def Complex.view (comp : Complex R L) : View R where
  X d := (comp.attr d Cochain.x).getD []
  up d := if (comp.cochains[d + 1]?).isSome then
    ((comp.attr d Cochain.upperIndex).getD []).zip ((comp.attr d Cochain.sharedCoboundaries).getD [])
    else []
  down d := match d with
    | 0 => []
    | d + 1 => ((comp.attr (d + 1) Cochain.lowerIndex).getD []).zip
        ((comp.attr (d + 1) Cochain.sharedBoundaries).getD [])
  bnd d := match d with
    | 0 => []
    | d + 1 => (comp.attr (d + 1) Cochain.boundaryIndex).getD []

/-- The part of a view up to dimension `m`. -/
def View.upTo (v : View R) (m : Nat) : View R where
  X d := if d ≤ m then v.X d else []
  up d := if d + 1 ≤ m then v.up d else []
  down d := if d ≤ m then v.down d else []
  bnd d := if d ≤ m then v.bnd d else []

/-- The feature rows one dimension below `d`. -/
def View.below (v : View R) : Nat → List R
  | 0 => []
  | d + 1 => v.X d

/-- All indices are in range. -/
structure View.InRange (v : View R) : Prop where
  up : ∀ d, ∀ p ∈ v.up d, p.1.1 < (v.X d).length ∧ p.1.2 < (v.X d).length ∧
    p.2 < (v.X (d + 1)).length
  down : ∀ d, ∀ p ∈ v.down d, p.1.1 < (v.X d).length ∧ p.1.2 < (v.X d).length ∧
    p.2 < (v.below d).length
  bnd : ∀ d, ∀ p ∈ v.bnd d, p.1 < (v.below d).length ∧ p.2 < (v.X d).length

/-- What a layer computes in one dimension: messages from upper neighbours (with the shared cell, if
its features are passed), lower neighbours (with the shared cell) and boundary cells, and the new
row from the old row and the three sums of messages. -/
structure Rule (R : Type) where
  up : R → Option R → R
  down : R → R → R
  bnd : R → R
  new : R → R → R → R → R

section
variable [AddCommMonoid R]

/-- Row `k`, zero when there is none. -/
def rowOf (rows : List R) (k : Nat) : R := rows[k]?.getD 0

/-- The sum of the upper messages to cell `c` of dimension `d`. -/
def View.upSum (v : View R) (r : Rule R) (shared : Bool) (d c : Nat) : R :=
  (((v.up d).filter (fun p => p.1.2 == c)).map fun p =>
    r.up (rowOf (v.X d) p.1.1) (if shared then some (rowOf (v.X (d + 1)) p.2) else none)).sum

/-- The sum of the lower messages to cell `c` of dimension `d`. -/
def View.downSum (v : View R) (r : Rule R) (d c : Nat) : R :=
  (((v.down d).filter (fun p => p.1.2 == c)).map fun p =>
    r.down (rowOf (v.X d) p.1.1) (rowOf (v.below d) p.2)).sum

/-- The sum of the messages of the boundary of cell `c` of dimension `d`. -/
def View.bndSum (v : View R) (r : Rule R) (d c : Nat) : R :=
  (((v.bnd d).filter (fun p => p.2 == c)).map fun p => r.bnd (rowOf (v.below d) p.1)).sum

/-- The new row of cell `c` of dimension `d`. -/
def View.newRow (v : View R) (r : Rule R) (shared : Bool) (d c : Nat) : R :=
  r.new (rowOf (v.X d) c) (v.upSum r shared d c) (v.downSum r d c) (v.bndSum r d c)

/-- One layer: dimensions up to `m` get new rows. The features of the shared cells are passed below
dimension `m`, and in dimension `m` iff `top`. -/
def View.layer (v : View R) (rules : Nat → Rule R) (m : Nat) (top : Bool) : View R :=
  { v with X := fun d =>
      if d ≤ m then
        (List.range (v.X d).length).map (v.newRow (rules d) (decide (d < m) || top) d)
      else v.X d }

/-- The views after each of the layers. -/
def View.run (m : Nat) (top : Bool) : View R → List (Nat → Rule R) → List (View R)
  | _, [] => []
  | v, rules :: rest => v.layer rules m top :: View.run m top (v.layer rules m top) rest

end

/-- The message of a column as a plain function (zero where the code raises an exception). -/
def Msg.value [Zero R] : Msg R R R → R → Option R → R
  | .plain f, x, _ => f x
  | .withAttr _, _, none => 0
  | .withAttr f, x, some a => f x a
  | .optAttr f _, x, none => f x
  | .optAttr _ g, x, some a => g x a

/-- The message function cannot do without the attribute. -/
def Msg.NeedsAttr (msg : Msg R R R) : Prop := ∃ f, msg = .withAttr f

section
variable {𝕜 : Type} [Field 𝕜] [AddCommMonoid R] [Module 𝕜 R]

/-- What a CIN layer computes. -/
def CINLevel.rule (l : CINLevel 𝕜 R) : Rule R where
  up x a := match a with
    | none => l.msgUpAlone x
    | some a => l.msgUp x a
  down := l.msgDown
  bnd := id
  new x u dn _ := l.update ((u + (1 + l.eps) • x) + (dn + (1 + l.eps) • x))

/-- What a SparseCIN layer computes: no lower messages. -/
def SparseLevel.rule (l : SparseLevel 𝕜 R) : Rule R where
  up := l.msgUp.value
  down x _ := x
  bnd := l.msgBoundary
  new x u _ b := l.combine (l.updateUp (u + (1 + l.eps1) • x)) (l.updateBoundary (b + (1 + l.eps2) • x))

/-- What a CIN++ layer computes: the part for the lower messages only sees the cell's own row. -/
def PPLevel.rule (l : PPLevel 𝕜 R) : Rule R where
  up := l.msgUp.value
  down x _ := x
  bnd := l.msgBoundary
  new x u _ b := l.combine (l.updateUp (u + (1 + l.eps1) • x)) (l.updateDown ((1 + l.eps2) • x))
    (l.updateBoundary (b + (1 + l.eps3) • x))

end

/-- What the dummy layer computes. -/
def DummyLevel.rule [AddCommMonoid R] (l : DummyLevel) : Rule R where
  up x a := match a with
    | none => 0
    | some a => x + a
  down x a := x + a
  bnd := id
  new x u dn b := x + u + (if l.useDown then dn else 0) + (if l.useBoundary then b else 0)

/-- The rule of each dimension, for a list of levels. -/
def rulesOf {Lv : Type} [Zero R] (rule : Lv → Rule R) (levels : List Lv) (d : Nat) : Rule R :=
  match levels[d]? with
  | some l => rule l
  | none => ⟨fun _ _ => 0, fun _ _ => 0, fun _ => 0, fun _ _ _ _ => 0⟩

/-- `φ d` maps the cells of dimension `d` of `v` to cells of `w` so that around each cell nothing
changes: same features, and the columns that end at the image of a cell are the images of the columns
that end at the cell. Inclusions of a complex in a batch and relabellings are of this kind. -/
structure LocalIso (v w : View R) (φ : Nat → Nat → Nat) : Prop where
  feat : ∀ d c, c < (v.X d).length → (w.X d)[φ d c]? = (v.X d)[c]?
  up : ∀ d c, c < (v.X d).length →
    ((w.up d).filter (fun p => p.1.2 == φ d c)).Perm
      (((v.up d).filter (fun p => p.1.2 == c)).map fun p =>
        ((φ d p.1.1, φ d p.1.2), φ (d + 1) p.2))
  down : ∀ d c, c < (v.X d).length →
    ((w.down d).filter (fun p => p.1.2 == φ d c)).Perm
      (((v.down d).filter (fun p => p.1.2 == c)).map fun p =>
        ((φ d p.1.1, φ d p.1.2), φ (d - 1) p.2))
  bnd : ∀ d c, c < (v.X d).length →
    ((w.bnd d).filter (fun p => p.2 == φ d c)).Perm
      (((v.bnd d).filter (fun p => p.2 == c)).map fun p => (φ (d - 1) p.1, φ d p.2))

end Verif
