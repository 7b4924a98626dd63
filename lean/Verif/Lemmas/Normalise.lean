import Verif.Model.Normalise
import Verif.Spec.Normalise
import Mathlib.Algebra.Order.BigOperators.Group.Finset
import Mathlib.Tactic.FieldSimp
import Mathlib.Tactic.Linarith

namespace Verif

theorem sum_reduceOption (g : ℝ → ℝ) (l : List (Option ℝ)) :
    (l.reduceOption.map g).sum = (l.map fun o => if o.isSome then g (o.getD 0) else 0).sum := by
  induction l with
  | nil => rfl
  | cons o l ih =>
    cases o with
    | none => simpa using ih
    | some v => simp [ih]

theorem sum_reduceOption_ofFn {n : Nat} (g : ℝ → ℝ) (x : Fin n → Option ℝ) :
    ((List.ofFn x).reduceOption.map g).sum = ∑ i ∈ known x, g ((x i).getD 0) := by
  rw [sum_reduceOption, List.map_ofFn, List.sum_ofFn]
  unfold known
  rw [Finset.sum_filter]
  rfl

theorem length_reduceOption_ofFn {n : Nat} (x : Fin n → Option ℝ) :
    (List.ofFn x).reduceOption.length = (known x).card := by
  have h := sum_reduceOption_ofFn (fun _ => 1) x
  simp at h
  exact_mod_cast h

theorem columnMean_ofFn {n : Nat} (x : Fin n → Option ℝ) (h : known x ≠ ∅) :
    columnMean (List.ofFn x) = some (columnAverage x) := by
  unfold columnMean columnAverage
  rw [if_neg, length_reduceOption_ofFn]
  · have := sum_reduceOption_ofFn (fun v => v) x
    simp only [List.map_id'] at this
    rw [this]
  · intro h0
    have := length_reduceOption_ofFn x
    rw [h0] at this
    exact h (Finset.card_eq_zero.mp this.symm)

theorem columnStd_ofFn {n : Nat} (x : Fin n → Option ℝ) (h : 2 ≤ (known x).card) :
    columnStd (List.ofFn x) = some (Real.sqrt (sampleVariance x)) := by
  unfold columnStd
  rw [columnMean_ofFn x (by rintro h0; rw [h0] at h; simp at h)]
  simp only
  rw [if_neg (by rw [length_reduceOption_ofFn]; omega), sum_reduceOption_ofFn, length_reduceOption_ofFn]
  rfl

theorem columnStd_few {n : Nat} (x : Fin n → Option ℝ) (h : (known x).card < 2) :
    columnStd (List.ofFn x) = none := by
  unfold columnStd
  split
  · rfl
  · rw [if_pos (by rw [length_reduceOption_ofFn]; exact h)]

theorem mem_known {n : Nat} {x : Fin n → Option ℝ} {i : Fin n} {a : ℝ} (h : x i = some a) : i ∈ known x := by
  unfold known; simp [h]

theorem Varies.two {n : Nat} {x : Fin n → Option ℝ} (h : Varies x) : 2 ≤ (known x).card := by
  obtain ⟨i, j, a, b, hi, hj, hab⟩ := h
  have hij : i ≠ j := by
    rintro rfl
    rw [hi] at hj
    exact hab (Option.some.inj hj)
  exact Finset.one_lt_card.mpr ⟨i, mem_known hi, j, mem_known hj, hij⟩

theorem Varies.positive {n : Nat} {x : Fin n → Option ℝ} (h : Varies x) : 0 < sampleVariance x := by
  have h2 := h.two
  obtain ⟨i, j, a, b, hi, hj, hab⟩ := h
  unfold sampleVariance
  refine div_pos ?_ ?_
  · refine lt_of_le_of_ne (Finset.sum_nonneg fun _ _ => sq_nonneg _) fun h0 => hab ?_
    have hz := (Finset.sum_eq_zero_iff_of_nonneg fun _ _ => sq_nonneg _).mp h0.symm
    have e1 := hz i (mem_known hi)
    have e2 := hz j (mem_known hj)
    rw [hi] at e1
    rw [hj] at e2
    simp only [Option.getD_some, sq_eq_zero_iff, sub_eq_zero] at e1 e2
    rw [e1, e2]
  · have : (2 : ℝ) ≤ (known x).card := by exact_mod_cast h2
    linarith

theorem constant_variance {n : Nat} {x : Fin n → Option ℝ} (h : ¬ Varies x) : sampleVariance x = 0 := by
  have hc : ∀ i ∈ known x, (x i).getD 0 = columnAverage x := by
    intro i hi
    have hconst : ∀ j ∈ known x, (x j).getD 0 = (x i).getD 0 := by
      intro j hj
      unfold known at hi hj
      obtain ⟨a, ha⟩ := Option.isSome_iff_exists.mp (Finset.mem_filter.mp hi).2
      obtain ⟨b, hb⟩ := Option.isSome_iff_exists.mp (Finset.mem_filter.mp hj).2
      rw [ha, hb]
      by_contra hne
      exact h ⟨j, i, b, a, hb, ha, hne⟩
    unfold columnAverage
    rw [Finset.sum_congr rfl hconst, Finset.sum_const, nsmul_eq_mul, mul_div_cancel_left₀]
    have : (known x).card ≠ 0 := Finset.card_ne_zero_of_mem hi
    exact_mod_cast this
  unfold sampleVariance
  rw [Finset.sum_eq_zero, zero_div]
  intro i hi
  rw [hc i hi]; simp

theorem standardise_varies {n : Nat} {x : Fin n → Option ℝ} (h : Varies x) :
    standardise (List.ofFn x) = List.ofFn (standard x) := by
  unfold standardise
  rw [columnMean_ofFn x (by rintro h0; have := h.two; rw [h0] at this; simp at this), columnStd_ofFn x h.two, List.map_ofFn]
  congr 1
  funext i
  simp only [Function.comp_apply]
  unfold standard
  cases x i with
  | none => rfl
  | some v =>
    simp only [standardEntry, Option.map_some]
    rw [if_neg (Real.sqrt_ne_zero'.mpr h.positive)]

theorem standardise_constant {n : Nat} {x : Fin n → Option ℝ} (h : ¬ Varies x) :
    standardise (List.ofFn x) = List.replicate n none := by
  unfold standardise
  have : ∀ v, standardEntry (columnMean (List.ofFn x)) (columnStd (List.ofFn x)) v = none := by
    intro v
    by_cases h2 : 2 ≤ (known x).card
    · rw [columnStd_ofFn x h2, constant_variance h]
      cases columnMean (List.ofFn x) <;> cases v <;> simp [standardEntry]
    · rw [columnStd_few x (by omega)]
      cases columnMean (List.ofFn x) <;> cases v <;> rfl
  rw [List.eq_replicate_iff]
  refine ⟨by simp, ?_⟩
  intro b hb
  obtain ⟨v, -, rfl⟩ := List.mem_map.mp hb
  exact this v

theorem known_map {n : Nat} (x : Fin n → Option ℝ) (g : ℝ → ℝ) : known (fun i => (x i).map g) = known x := by
  unfold known; simp

/-- Mean and variance of a column after an affine change. -/
theorem columnAverage_affine {n : Nat} (x : Fin n → Option ℝ) (a b : ℝ) (h : known x ≠ ∅) :
    columnAverage (fun i => (x i).map fun v => a * v + b) = a * columnAverage x + b := by
  have hc : ((known x).card : ℝ) ≠ 0 := by simpa using h
  unfold columnAverage
  rw [known_map]
  have : ∀ i ∈ known x, ((x i).map fun v => a * v + b).getD 0 = a * (x i).getD 0 + b := by
    intro i hi
    unfold known at hi
    obtain ⟨v, hv⟩ := Option.isSome_iff_exists.mp (Finset.mem_filter.mp hi).2
    simp [hv]
  rw [Finset.sum_congr rfl this, Finset.sum_add_distrib, ← Finset.mul_sum, Finset.sum_const, nsmul_eq_mul]
  field_simp

theorem variance_affine {n : Nat} (x : Fin n → Option ℝ) (a b : ℝ) :
    sampleVariance (fun i => (x i).map fun v => a * v + b) = a ^ 2 * sampleVariance x := by
  by_cases h : known x = ∅
  · unfold sampleVariance
    rw [known_map, h]; simp
  · unfold sampleVariance
    rw [columnAverage_affine x a b h, known_map]
    have : ∀ i ∈ known x, (((x i).map fun v => a * v + b).getD 0 - (a * columnAverage x + b)) ^ 2 =
        a ^ 2 * ((x i).getD 0 - columnAverage x) ^ 2 := by
      intro i hi
      unfold known at hi
      obtain ⟨v, hv⟩ := Option.isSome_iff_exists.mp (Finset.mem_filter.mp hi).2
      simp only [hv, Option.map_some, Option.getD_some]
      ring
    rw [Finset.sum_congr rfl this, ← Finset.mul_sum, mul_div_assoc]

theorem standard_eq_affine {n : Nat} (x : Fin n → Option ℝ) :
    standard x = fun i => (x i).map fun v =>
      (Real.sqrt (sampleVariance x))⁻¹ * v + -(columnAverage x / Real.sqrt (sampleVariance x)) := by
  funext i
  unfold standard
  congr 1
  funext v
  rw [div_eq_inv_mul, div_eq_inv_mul]; ring

end Verif
