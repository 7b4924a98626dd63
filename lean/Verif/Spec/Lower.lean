import Verif.Spec.Colour

/-!
# Specification of complexes whose adjacencies come from their faces
-/

namespace Verif

variable {R : Type}

/-- The adjacencies of the view are the ones its incidences give: upper neighbours share a coface, lower
neighbours share a face, every column once; a cell with a face has another one. -/
structure View.FromFaces (v : View R) : Prop where
  inRange : v.InRange
  bndNodup : ∀ d, (v.bnd d).Nodup
  upNodup : ∀ d, (v.up d).Nodup
  up : ∀ d a b c, ((a, b), c) ∈ v.up d ↔ a ≠ b ∧ (a, c) ∈ v.bnd (d + 1) ∧ (b, c) ∈ v.bnd (d + 1)
  downNodup : ∀ d, (v.down d).Nodup
  down : ∀ d a b c, ((a, b), c) ∈ v.down d ↔ a ≠ b ∧ (c, a) ∈ v.bnd d ∧ (c, b) ∈ v.bnd d
  two : ∀ d b c, (b, c) ∈ v.bnd d → ∃ b', b' ≠ b ∧ (b', c) ∈ v.bnd d

end Verif
