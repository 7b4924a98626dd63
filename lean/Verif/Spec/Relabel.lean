import Verif.Spec.Runs
import Mathlib.Logic.Equiv.Defs

/-!
# Specification of renumbering cells
-/

namespace Verif

variable {R L : Type}

/-- `w` is `v` with cell `c` of dimension `d` renamed to `φ d c`: the renaming is one-to-one, features
go with the cells, and the columns are the renamed columns in some order. -/
structure Relabels (v w : View R) (φ : Nat → Nat → Nat) : Prop where
  size : ∀ d, (w.X d).length = (v.X d).length
  inj : ∀ d c e, c < (v.X d).length → e < (v.X d).length → φ d c = φ d e → c = e
  feat : ∀ d c, c < (v.X d).length → (w.X d)[φ d c]? = (v.X d)[c]?
  up : ∀ d, (w.up d).Perm ((v.up d).map fun p => ((φ d p.1.1, φ d p.1.2), φ (d + 1) p.2))
  down : ∀ d, (w.down d).Perm ((v.down d).map fun p => ((φ d p.1.1, φ d p.1.2), φ (d - 1) p.2))
  bnd : ∀ d, (w.bnd d).Perm ((v.bnd d).map fun p => (φ (d - 1) p.1, φ d p.2))

/-- `σ d` maps the cells of dimension `d` to cells of dimension `d`, for every `d`. -/
def Complex.Permutes (comp : Complex R L) (σ : Nat → Equiv.Perm Nat) : Prop :=
  ∀ d c, σ d c < comp.cellsIn d ↔ c < comp.cellsIn d

/-- The feature rows with row `c` moved to place `σ c`. -/
def moveRows (σ : Equiv.Perm Nat) (rows : List R) : List R :=
  (List.range rows.length).filterMap fun k => rows[σ.symm k]?

/-- The complex with cell `c` of dimension `d` renamed to `σ d c`: features, adjacencies, incidences
and shared ids. The numbers of cells above and below are recorded as the constructor does. Labels
stay as they are (no layer reads them). -/
def Complex.relabel (comp : Complex R L) (σ : Nat → Equiv.Perm Nat) : Complex R L :=
  { comp with cochains := comp.cochains.mapIdx fun d (c : Cochain R L) =>
    { c with
      x := c.x.map (moveRows (σ d))
      upperIndex := c.upperIndex.map (·.map fun p => (σ d p.1, σ d p.2))
      sharedCoboundaries := c.sharedCoboundaries.map (·.map (σ (d + 1)))
      lowerIndex := c.lowerIndex.map (·.map fun p => (σ d p.1, σ d p.2))
      sharedBoundaries := c.sharedBoundaries.map (·.map (σ (d - 1)))
      boundaryIndex := c.boundaryIndex.map (·.map fun p => (σ (d - 1) p.1, σ d p.2))
      numCellsUpAttr := if (comp.cochains[d + 1]?).isSome then some (some (comp.cellsIn (d + 1)))
        else c.numCellsUpAttr
      numCellsDownAttr := if d = 0 then c.numCellsDownAttr
        else some (some (comp.cellsIn (d - 1))) } }

end Verif
