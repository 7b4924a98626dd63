import Verif.Spec.View

/-!
# Layers respect local isomorphisms
-/

namespace Verif

variable {R : Type} [AddCommMonoid R]

@[simp] theorem layer_up (v : View R) (rules : Nat → Rule R) (m : Nat) (top : Bool) :
    (v.layer rules m top).up = v.up := rfl
@[simp] theorem layer_down (v : View R) (rules : Nat → Rule R) (m : Nat) (top : Bool) :
    (v.layer rules m top).down = v.down := rfl
@[simp] theorem layer_bnd (v : View R) (rules : Nat → Rule R) (m : Nat) (top : Bool) :
    (v.layer rules m top).bnd = v.bnd := rfl

theorem layer_X_length (v : View R) (rules : Nat → Rule R) (m : Nat) (top : Bool) (d : Nat) :
    ((v.layer rules m top).X d).length = (v.X d).length := by
  simp only [View.layer]
  split <;> simp

theorem layer_below_length (v : View R) (rules : Nat → Rule R) (m : Nat) (top : Bool) (d : Nat) :
    ((v.layer rules m top).below d).length = (v.below d).length := by
  cases d with
  | zero => rfl
  | succ d => exact layer_X_length v rules m top d

theorem layer_inRange {v : View R} (h : v.InRange) (rules : Nat → Rule R) (m : Nat) (top : Bool) :
    (v.layer rules m top).InRange := by
  constructor
  · intro d p hp
    rw [layer_X_length, layer_X_length]
    exact h.up d p hp
  · intro d p hp
    rw [layer_X_length, layer_below_length]
    exact h.down d p hp
  · intro d p hp
    rw [layer_X_length, layer_below_length]
    exact h.bnd d p hp

theorem LocalIso.row {v w : View R} {φ : Nat → Nat → Nat} (h : LocalIso v w φ) {d c : Nat}
    (hc : c < (v.X d).length) : rowOf (w.X d) (φ d c) = rowOf (v.X d) c := by
  unfold rowOf
  rw [h.feat d c hc]

theorem LocalIso.below {v w : View R} {φ : Nat → Nat → Nat} (h : LocalIso v w φ) {d c : Nat}
    (hc : c < (v.below d).length) : rowOf (w.below d) (φ (d - 1) c) = rowOf (v.below d) c := by
  cases d with
  | zero => simp [View.below] at hc
  | succ d => exact h.row hc

theorem LocalIso.lt {v w : View R} {φ : Nat → Nat → Nat} (h : LocalIso v w φ) {d c : Nat}
    (hc : c < (v.X d).length) : φ d c < (w.X d).length := by
  have := h.feat d c hc
  rw [List.getElem?_eq_getElem hc] at this
  exact (List.getElem?_eq_some_iff.mp this).1

theorem LocalIso.newRow {v w : View R} {φ : Nat → Nat → Nat} (h : LocalIso v w φ)
    (hv : v.InRange) (r : Rule R) (shared : Bool) {d c : Nat} (hc : c < (v.X d).length) :
    w.newRow r shared d (φ d c) = v.newRow r shared d c := by
  have e1 : w.upSum r shared d (φ d c) = v.upSum r shared d c := by
    unfold View.upSum
    rw [((h.up d c hc).map _).sum_eq, List.map_map]
    congr 1
    apply List.map_congr_left
    intro p hp
    obtain ⟨h1, _, h3⟩ := hv.up d p (List.mem_filter.mp hp).1
    simp only [Function.comp]
    rw [h.row h1, h.row h3]
  have e2 : w.downSum r d (φ d c) = v.downSum r d c := by
    unfold View.downSum
    rw [((h.down d c hc).map _).sum_eq, List.map_map]
    congr 1
    apply List.map_congr_left
    intro p hp
    obtain ⟨h1, _, h3⟩ := hv.down d p (List.mem_filter.mp hp).1
    simp only [Function.comp]
    rw [h.row h1, h.below h3]
  have e3 : w.bndSum r d (φ d c) = v.bndSum r d c := by
    unfold View.bndSum
    rw [((h.bnd d c hc).map _).sum_eq, List.map_map]
    congr 1
    apply List.map_congr_left
    intro p hp
    obtain ⟨h1, _⟩ := hv.bnd d p (List.mem_filter.mp hp).1
    simp only [Function.comp]
    rw [h.below h1]
  unfold View.newRow
  rw [e1, e2, e3, h.row hc]

/-- A layer keeps a local isomorphism a local isomorphism. -/
theorem LocalIso.layer {v w : View R} {φ : Nat → Nat → Nat} (h : LocalIso v w φ)
    (hv : v.InRange) (rules : Nat → Rule R) (m : Nat) (top : Bool) :
    LocalIso (v.layer rules m top) (w.layer rules m top) φ where
  feat := by
    intro d c hc
    rw [layer_X_length] at hc
    simp only [View.layer]
    by_cases hd : d ≤ m
    · rw [if_pos hd, if_pos hd, List.getElem?_map, List.getElem?_map,
        List.getElem?_range (h.lt hc), List.getElem?_range hc, Option.map_some, Option.map_some,
        h.newRow hv _ _ hc]
    · rw [if_neg hd, if_neg hd]
      exact h.feat d c hc
  up := by intro d c hc; rw [layer_X_length] at hc; exact h.up d c hc
  down := by intro d c hc; rw [layer_X_length] at hc; exact h.down d c hc
  bnd := by intro d c hc; rw [layer_X_length] at hc; exact h.bnd d c hc

/-- So do any number of layers. -/
theorem LocalIso.run {v w : View R} {φ : Nat → Nat → Nat} (h : LocalIso v w φ)
    (hv : v.InRange) (layers : List (Nat → Rule R)) (m : Nat) (top : Bool) :
    List.Forall₂ (fun v' w' => LocalIso v' w' φ ∧ ∀ d, (v'.X d).length = (v.X d).length)
      (View.run m top v layers) (View.run m top w layers) := by
  induction layers generalizing v w with
  | nil => exact .nil
  | cons rules rest ih =>
    refine .cons ⟨h.layer hv rules m top, layer_X_length v rules m top⟩ ?_
    have := ih (h.layer hv rules m top) (layer_inRange hv rules m top)
    simp only [layer_X_length] at this
    exact this

theorem run_length (v : View R) (layers : List (Nat → Rule R)) (m : Nat) (top : Bool) :
    (View.run m top v layers).length = layers.length := by
  induction layers generalizing v with
  | nil => rfl
  | cons r rest ih => simp [View.run, ih]

theorem run_X_length (v : View R) (layers : List (Nat → Rule R)) (m : Nat) (top : Bool)
    {w : View R} (hw : w ∈ View.run m top v layers) (d : Nat) :
    (w.X d).length = (v.X d).length := by
  induction layers generalizing v with
  | nil => simp [View.run] at hw
  | cons r rest ih =>
    rcases List.mem_cons.mp hw with rfl | hw
    · exact layer_X_length v r m top d
    · rw [ih _ hw, layer_X_length]

end Verif
