import Verif.Model.Loss
import Verif.Spec.Loss
import Mathlib.Tactic.Ring

namespace Verif

theorem cutLike_flatten {α β : Type} (pred : List (List α)) (rows : List (List β))
    (h : rows.map List.length = pred.map List.length) : cutLike pred rows.flatten = rows := by
  induction pred generalizing rows with
  | nil =>
    cases rows with
    | nil => rfl
    | cons => simp at h
  | cons row pred ih =>
    cases rows with
    | nil => simp at h
    | cons r rows =>
      simp only [List.map_cons, List.cons.injEq] at h
      simp only [cutLike, List.flatten_cons]
      rw [← h.1, List.take_left, List.drop_left, ih rows h.2]

theorem flatten_cutLike {α β : Type} (pred : List (List α)) (flat : List β)
    (h : flat.length = (pred.map List.length).sum) : (cutLike pred flat).flatten = flat := by
  induction pred generalizing flat with
  | nil =>
    simp only [List.map_nil, List.sum_nil, List.length_eq_zero_iff] at h
    rw [h]; rfl
  | cons row pred ih =>
    simp only [cutLike, List.flatten_cons]
    rw [ih, List.take_append_drop]
    simp only [List.map_cons, List.sum_cons] at h
    rw [List.length_drop]; omega

theorem viewAs_flatten {α β : Type} (pred : List (List α)) (rows : List (List β))
    (h : rows.map List.length = pred.map List.length) : viewAs pred rows.flatten = .ok rows := by
  unfold viewAs
  rw [if_pos (by rw [List.length_flatten, h]), cutLike_flatten _ _ h]

/-- The errors at the labels that are present. -/
def errorsOf (f : ℚ → ℚ → ℚ) (l : List (ℚ × Option ℚ)) : List ℚ :=
  l.filterMap fun e => e.2.map fun t => f e.1 t

theorem maskedLoss_ok (f : ℚ → ℚ → ℚ) (pred : List (List ℚ)) (y : List (Option ℚ))
    (h : y.length = (pred.map List.length).sum) :
    maskedLoss f pred y = .ok (meanLoss (errorsOf f (pred.flatten.zip y))) := by
  unfold maskedLoss viewAs
  rw [if_pos h]
  show Except.ok _ = _
  unfold maskedPairs
  rw [flatten_cutLike _ _ h, List.map_filterMap]
  unfold errorsOf
  congr 3
  funext e
  cases e.2 <;> rfl

theorem maskedLoss_error (f : ℚ → ℚ → ℚ) (pred : List (List ℚ)) (y : List (Option ℚ))
    (h : y.length ≠ (pred.map List.length).sum) : maskedLoss f pred y = .error .runtime := by
  unfold maskedLoss viewAs
  rw [if_neg h]; rfl

theorem flatten_zip_rows {α β : Type} (a : List (List α)) (b : List (List β))
    (h : a.map List.length = b.map List.length) :
    a.flatten.zip b.flatten = ((a.zip b).map fun e => e.1.zip e.2).flatten := by
  induction a generalizing b with
  | nil =>
    cases b with
    | nil => rfl
    | cons => simp at h
  | cons r a ih =>
    cases b with
    | nil => simp at h
    | cons s b =>
      simp only [List.map_cons, List.cons.injEq] at h
      simp only [List.flatten_cons, List.zip_cons_cons, List.map_cons]
      rw [List.zip_append h.1, ih b h.2]

theorem zip_ofFn {α β : Type} {n : Nat} (a : Fin n → α) (b : Fin n → β) :
    (List.ofFn a).zip (List.ofFn b) = List.ofFn fun i => (a i, b i) := by
  induction n with
  | zero => simp
  | succ n ih => simp only [List.ofFn_succ, List.zip_cons_cons, ih]

theorem matrixRows_lengths {α β : Type} {n T : Nat} (p : Fin n → Fin T → α) (q : Fin n → Fin T → β) :
    (matrixRows p).map List.length = (matrixRows q).map List.length := by
  simp [matrixRows, List.map_ofFn, Function.comp_def]

theorem matrixRows_zip {α β : Type} {n T : Nat} (p : Fin n → Fin T → α) (q : Fin n → Fin T → β) :
    (matrixRows p).flatten.zip (matrixRows q).flatten = (matrixRows fun i t => (p i t, q i t)).flatten := by
  rw [flatten_zip_rows _ _ (matrixRows_lengths p q)]
  simp [matrixRows, zip_ofFn, List.map_ofFn, Function.comp_def]

theorem errorsOf_append (f : ℚ → ℚ → ℚ) (a b : List (ℚ × Option ℚ)) :
    errorsOf f (a ++ b) = errorsOf f a ++ errorsOf f b := List.filterMap_append

theorem sum_errorsOf (f : ℚ → ℚ → ℚ) (l : List (ℚ × Option ℚ)) :
    (errorsOf f l).sum = (l.map fun e => if e.2.isSome then f e.1 (e.2.getD 0) else 0).sum := by
  induction l with
  | nil => rfl
  | cons e l ih =>
    obtain ⟨a, b⟩ := e
    cases b with
    | none => simpa [errorsOf] using ih
    | some b =>
      simp only [errorsOf, List.filterMap_cons, Option.map_some, List.sum_cons, List.map_cons,
        Option.isSome_some, if_true, Option.getD_some]
      rw [← ih]; rfl

theorem length_errorsOf (f : ℚ → ℚ → ℚ) (l : List (ℚ × Option ℚ)) :
    (errorsOf f l).length = l.countP fun e => e.2.isSome := by
  induction l with
  | nil => rfl
  | cons e l ih =>
    obtain ⟨a, b⟩ := e
    cases b with
    | none => simpa [errorsOf] using ih
    | some b => simpa [errorsOf] using ih

theorem length_errorsOf_cast (f : ℚ → ℚ → ℚ) (l : List (ℚ × Option ℚ)) :
    ((errorsOf f l).length : ℚ) = (errorsOf (fun _ _ => 1) l).sum := by
  induction l with
  | nil => rfl
  | cons e l ih =>
    obtain ⟨a, b⟩ := e
    cases b with
    | none => simpa [errorsOf] using ih
    | some b => simp [errorsOf] at ih ⊢; rw [ih]; ring

theorem sum_matrixRows {n T : Nat} (g : Fin n → Fin T → ℚ) : (matrixRows g).flatten.sum = ∑ i, ∑ t, g i t := by
  simp [matrixRows, List.sum_flatten, List.map_ofFn, List.sum_ofFn, Function.comp_def]

theorem map_matrixRows {α β : Type} {n T : Nat} (h : α → β) (p : Fin n → Fin T → α) :
    (matrixRows p).flatten.map h = (matrixRows fun i t => h (p i t)).flatten := by
  simp [matrixRows, List.map_flatten, List.map_ofFn, Function.comp_def]

theorem sum_errors_matrix {n T : Nat} (f : ℚ → ℚ → ℚ) (p : Fin n → Fin T → ℚ) (y : Fin n → Fin T → Option ℚ) :
    (errorsOf f ((matrixRows p).flatten.zip (matrixRows y).flatten)).sum =
      ∑ e ∈ labelled y, f (p e.1 e.2) ((y e.1 e.2).getD 0) := by
  rw [matrixRows_zip, sum_errorsOf, map_matrixRows, sum_matrixRows]
  unfold labelled
  rw [Finset.sum_filter, ← Finset.univ_product_univ, Finset.sum_product]

theorem length_errors_matrix {n T : Nat} (f : ℚ → ℚ → ℚ) (p : Fin n → Fin T → ℚ) (y : Fin n → Fin T → Option ℚ) :
    ((errorsOf f ((matrixRows p).flatten.zip (matrixRows y).flatten)).length : ℚ) = (labelled y).card := by
  rw [length_errorsOf_cast, sum_errors_matrix]; simp

theorem maskedLoss_matrix {n T : Nat} (f : ℚ → ℚ → ℚ) (p : Fin n → Fin T → ℚ) (y : Fin n → Fin T → Option ℚ) :
    maskedLoss f (matrixRows p) (matrixRows y).flatten = .ok (meanError f p y) := by
  rw [maskedLoss_ok _ _ _ (by rw [List.length_flatten, matrixRows_lengths y p])]
  unfold meanLoss meanError
  have hl := length_errors_matrix f p y
  by_cases h : labelled y = ∅
  · rw [if_pos h, if_pos]
    rw [h] at hl
    simpa using hl
  · rw [if_neg h, if_neg, sum_errors_matrix, hl]
    intro h0
    rw [h0] at hl
    simp at hl
    exact h (Finset.card_eq_zero.mp (by exact_mod_cast hl.symm))

theorem countP_zip_snd {α β : Type} (q : β → Bool) (a : List α) (b : List β) (h : a.length = b.length) :
    ((a.zip b).countP fun e => q e.2) = b.countP q := by
  have : b = (a.zip b).map Prod.snd := by rw [List.map_snd_zip]; omega
  conv_rhs => rw [this, List.countP_map]
  rfl

theorem flatMap_errors (f : ℚ → ℚ → ℚ) (loader : List (List (List ℚ) × List (Option ℚ)))
    (hshape : ∀ b ∈ loader, b.2.length = (b.1.map List.length).sum) :
    errorsOf f ((loader.flatMap Prod.fst).flatten.zip (loader.flatMap Prod.snd)) =
      loader.flatMap fun b => errorsOf f (b.1.flatten.zip b.2) := by
  induction loader with
  | nil => rfl
  | cons b loader ih =>
    simp only [List.flatMap_cons, List.flatten_append]
    rw [List.zip_append (by rw [List.length_flatten, hshape b (by simp)]), errorsOf_append,
      ih fun b hb => hshape b (by simp [hb])]

end Verif
