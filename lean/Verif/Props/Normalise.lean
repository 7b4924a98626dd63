import Verif.Lemmas.Normalise
import Mathlib.Tactic.FinCases
import Mathlib.Tactic.NormNum

/-!
# C97: the targets of the structural peptides
-/

namespace Verif

/-- **C97.** A column of targets with two different values (data/datasets/peptides_structural.py:156-158): it becomes
`(x - mean) / deviation`, with the values in the same rows as before; the new column has mean zero and sample variance
one. -/
theorem C97_standardised_column {n : Nat} (x : Fin n → Option ℝ) (h : Varies x) :
    ∃ z : Fin n → Option ℝ, standardise (List.ofFn x) = List.ofFn z ∧
      (∀ i, z i = (x i).map fun v => (v - columnAverage x) / Real.sqrt (sampleVariance x)) ∧
      0 < sampleVariance x ∧ columnAverage z = 0 ∧ sampleVariance z = 1 := by
  have hp := h.positive
  have hs := Real.sqrt_ne_zero'.mpr hp
  have hne : known x ≠ ∅ := by rintro h0; have := h.two; rw [h0] at this; simp at this
  refine ⟨standard x, standardise_varies h, fun i => rfl, hp, ?_, ?_⟩
  · rw [standard_eq_affine, columnAverage_affine _ _ _ hne, div_eq_inv_mul]; ring
  · rw [standard_eq_affine, variance_affine, inv_pow, Real.sq_sqrt hp.le]
    exact inv_mul_cancel₀ hp.ne'

/-- **C97.** Nothing is lost: the order of the values stays, the values can be computed back from the mean `m` and the
deviation `s`, and the error of a prediction `p` is, up to the factor `s`, the error of `p * s + m` for the target as it
was. So an error averaged over the targets weighs every target with the inverse of its deviation. -/
theorem C97_standardised_targets {n : Nat} (x : Fin n → Option ℝ) (h : Varies x) :
    ∃ (z : Fin n → Option ℝ) (m s : ℝ), standardise (List.ofFn x) = List.ofFn z ∧ 0 < s ∧
      (∀ i, z i = none ↔ x i = none) ∧
      (∀ i a', z i = some a' → x i = some (a' * s + m)) ∧
      (∀ i j a b a' b', x i = some a → x j = some b → z i = some a' → z j = some b' → (a' < b' ↔ a < b)) ∧
      ∀ i a a' p, x i = some a → z i = some a' → |p - a'| * s = |(p * s + m) - a| := by
  have hs : 0 < Real.sqrt (sampleVariance x) := Real.sqrt_pos.mpr h.positive
  refine ⟨standard x, columnAverage x, Real.sqrt (sampleVariance x), standardise_varies h, hs, ?_, ?_, ?_, ?_⟩
  · intro i
    unfold standard
    simp
  · intro i a' hi
    unfold standard at hi
    obtain ⟨v, hv, rfl⟩ := Option.map_eq_some_iff.mp hi
    rw [hv, div_mul_cancel₀ _ hs.ne']; simp
  · intro i j a b a' b' hi hj hi' hj'
    unfold standard at hi' hj'
    rw [hi] at hi'
    rw [hj] at hj'
    cases hi'
    cases hj'
    rw [div_lt_div_iff_of_pos_right hs]
    constructor <;> intro h <;> linarith
  · intro i a a' p hi hi'
    unfold standard at hi'
    rw [hi] at hi'
    cases hi'
    have hmul : ∀ c s : ℝ, 0 < s → |c| * s = |c * s| := fun c s hs => by rw [abs_mul, abs_of_pos hs]
    rw [hmul _ _ hs]
    congr 1
    field_simp
    ring

/-- **C97.** A column with no two different values becomes a column of missing targets, whatever the values are: all of
them are lost. -/
theorem C97_constant_column {n : Nat} (x : Fin n → Option ℝ) (h : ¬ Varies x) :
    standardise (List.ofFn x) = List.replicate n none := standardise_constant h

/-- **C97.** The units of a target do not matter: a positive factor and an added constant change nothing, and a negative
factor changes the sign. -/
theorem C97_units_do_not_matter {n : Nat} (x : Fin n → Option ℝ) (a b : ℝ) :
    (0 < a → standardise (List.ofFn fun i => (x i).map fun v => a * v + b) = standardise (List.ofFn x)) ∧
    (a < 0 → standardise (List.ofFn fun i => (x i).map fun v => a * v + b) =
      (standardise (List.ofFn x)).map fun o => o.map fun v => -v) := by
  have hv : a ≠ 0 → ((Varies fun i => (x i).map fun v => a * v + b) ↔ Varies x) := by
    intro ha
    constructor
    · rintro ⟨i, j, u, w, hi, hj, huw⟩
      obtain ⟨u', hu', rfl⟩ := Option.map_eq_some_iff.mp hi
      obtain ⟨w', hw', rfl⟩ := Option.map_eq_some_iff.mp hj
      exact ⟨i, j, u', w', hu', hw', fun e => huw (by rw [e])⟩
    · rintro ⟨i, j, u, w, hi, hj, huw⟩
      refine ⟨i, j, a * u + b, a * w + b, by simp [hi], by simp [hj], fun e => huw ?_⟩
      exact mul_left_cancel₀ ha (add_right_cancel e)
  have hz : ∀ _ : a ≠ 0, Varies x → ∀ i, standard (fun i => (x i).map fun v => a * v + b) i =
      (standard x i).map fun v => a / |a| * v := by
    intro ha h i
    have hne : known x ≠ ∅ := by rintro h0; have := h.two; rw [h0] at this; simp at this
    have hs : Real.sqrt (sampleVariance x) ≠ 0 := Real.sqrt_ne_zero'.mpr h.positive
    have ha' : |a| ≠ 0 := abs_ne_zero.mpr ha
    unfold standard
    rw [columnAverage_affine x a b hne, variance_affine, Real.sqrt_mul (sq_nonneg a), Real.sqrt_sq_eq_abs, Option.map_map,
      Option.map_map]
    congr 1
    funext v
    simp only [Function.comp_apply]
    field_simp
    ring
  constructor
  · intro ha
    by_cases h : Varies x
    · rw [standardise_varies ((hv ha.ne').mpr h), standardise_varies h]
      congr 1
      funext i
      rw [hz ha.ne' h, abs_of_pos ha, div_self ha.ne']
      simp
    · rw [standardise_constant (fun h' => h ((hv ha.ne').mp h')), standardise_constant h]
  · intro ha
    by_cases h : Varies x
    · rw [standardise_varies ((hv ha.ne).mpr h), standardise_varies h, List.map_ofFn]
      congr 1
      funext i
      rw [hz ha.ne h, abs_of_neg ha, Function.comp_apply]
      congr 1
      funext v
      rw [div_neg, div_self ha.ne]; ring
    · rw [standardise_constant (fun h' => h ((hv ha.ne).mp h')), standardise_constant h]
      simp

/-- **C97.** Doing it twice is the same as doing it once. -/
theorem C97_idempotent {n : Nat} (x : Fin n → Option ℝ) :
    standardise (standardise (List.ofFn x)) = standardise (List.ofFn x) := by
  by_cases h : Varies x
  · obtain ⟨z, h1, h2, h3, h4, h5⟩ := C97_standardised_column x h
    have hs : Real.sqrt (sampleVariance x) ≠ 0 := Real.sqrt_ne_zero'.mpr h3
    have hz : Varies z := by
      obtain ⟨i, j, a, b, hi, hj, hab⟩ := h
      refine ⟨i, j, _, _, by rw [h2, hi]; rfl, by rw [h2, hj]; rfl, fun e => hab ?_⟩
      field_simp at e
      linarith
    rw [h1, standardise_varies hz]
    congr 1
    funext i
    unfold standard
    rw [h4, h5, Real.sqrt_one]
    simp
  · rw [standardise_constant h]
    have : List.replicate n (none : Option ℝ) = List.ofFn (fun _ : Fin n => none) := by simp
    rw [this, standardise_constant, this]
    rintro ⟨i, j, a, b, hi, -, -⟩
    cases hi

/-- **C97.** The labels of the structural peptides: the string of row `i` comes with the standardised targets of row `i`,
each standardised with the values of its own column in all the rows of the file, of whatever split. Together with
`C80_peptides` this says which labels the complexes of the dataset have. -/
theorem C97_labels {n T : Nat} (smiles : Fin n → String) (y : Fin n → Fin T → Option ℝ) :
    structuralTable T (List.ofFn smiles) (List.ofFn fun i => List.ofFn (y i)) =
      List.ofFn fun i => (smiles i, List.ofFn fun t =>
        open Classical in if Varies (fun i => y i t) then standard (fun i => y i t) i else none) := by
  classical
  unfold structuralTable standardRows
  have hcol : ∀ t : Fin T, columnOf (List.ofFn fun i => List.ofFn (y i)) t = List.ofFn fun i => y i t := by
    intro t
    unfold columnOf
    rw [List.map_ofFn]
    congr 1
    funext i
    simp
  apply List.ext_getElem
  · simp
  · intro i h1 h2
    have hi : i < n := by simpa using h2
    simp only [List.getElem_zip, List.getElem_ofFn, List.getElem_map, List.getElem_range, Prod.mk.injEq, true_and]
    apply List.ext_getElem
    · simp
    · intro j h3 h4
      have hj : j < T := by simpa using h4
      simp only [List.getElem_map, List.getElem_range, List.getElem_ofFn]
      have := hcol ⟨j, hj⟩
      simp only at this
      rw [this]
      by_cases hv : Varies fun i => y i ⟨j, hj⟩
      · rw [if_pos hv, standardise_varies hv]
        simp [hi]
      · rw [if_neg hv, standardise_constant hv]
        simp [hi]

/-- Three rows, one target: the values 0, 1, 2. -/
theorem standard_first : standardise (List.ofFn ![some 0, some 1, some 2]) = [some (-1), some 0, some 1] := by
  have hv : Varies (![some 0, some 1, some 2] : Fin 3 → Option ℝ) := ⟨0, 1, 0, 1, rfl, rfl, by norm_num⟩
  have hk : known (![some 0, some 1, some 2] : Fin 3 → Option ℝ) = Finset.univ := by
    unfold known
    ext i
    fin_cases i <;> simp
  have ha : columnAverage (![some 0, some 1, some 2] : Fin 3 → Option ℝ) = 1 := by
    unfold columnAverage
    rw [hk, Fin.sum_univ_three]
    simp; norm_num
  have hs : sampleVariance (![some 0, some 1, some 2] : Fin 3 → Option ℝ) = 1 := by
    unfold sampleVariance
    rw [hk, ha, Fin.sum_univ_three]
    simp; norm_num
  rw [standardise_varies hv]
  unfold standard
  rw [ha, hs]
  simp; norm_num

/-- Three rows, one target: the values 0, 1, 1/2. -/
theorem standard_second : standardise (List.ofFn ![some 0, some 1, some (1 / 2)]) = [some (-1), some 1, some 0] := by
  have hv : Varies (![some 0, some 1, some (1 / 2)] : Fin 3 → Option ℝ) := ⟨0, 1, 0, 1, rfl, rfl, by norm_num⟩
  have hk : known (![some 0, some 1, some (1 / 2)] : Fin 3 → Option ℝ) = Finset.univ := by
    unfold known
    ext i
    fin_cases i <;> simp
  have ha : columnAverage (![some 0, some 1, some (1 / 2)] : Fin 3 → Option ℝ) = 1 / 2 := by
    unfold columnAverage
    rw [hk, Fin.sum_univ_three]
    simp; norm_num
  have hs : sampleVariance (![some 0, some 1, some (1 / 2)] : Fin 3 → Option ℝ) = (1 / 2) ^ 2 := by
    unfold sampleVariance
    rw [hk, ha, Fin.sum_univ_three]
    simp; norm_num
  rw [standardise_varies hv]
  unfold standard
  rw [ha, hs, Real.sqrt_sq (by norm_num)]
  simp; norm_num

/-- **C97.** So the labels of the training data depend on the rest: two files whose first two rows agree give the second
row different labels. -/
theorem C97_labels_depend_on_other_splits :
    ∃ rows rows' : List (List (Option ℝ)), rows.length = rows'.length ∧ rows.take 2 = rows'.take 2 ∧
      (standardRows 1 rows)[1]? = some [some 0] ∧ (standardRows 1 rows')[1]? = some [some 1] := by
  refine ⟨[[some 0], [some 1], [some 2]], [[some 0], [some 1], [some (1 / 2)]], rfl, rfl, ?_, ?_⟩
  · have h : columnOf [[some (0 : ℝ)], [some 1], [some 2]] 0 = List.ofFn ![some 0, some 1, some 2] := by
      simp [columnOf]
    show some [((standardise (columnOf _ 0))[1]?).join] = _
    rw [h, standard_first]; rfl
  · have h : columnOf [[some (0 : ℝ)], [some 1], [some (1 / 2)]] 0 = List.ofFn ![some 0, some 1, some (1 / 2)] := by
      simp [columnOf]
    show some [((standardise (columnOf _ 0))[1]?).join] = _
    rw [h, standard_second]; rfl

/-! ### Examples -/

/-- The hypothesis of `C97_standardised_column`: a column with a missing value and two different ones. -/
example : Varies (![some 0, none, some 2] : Fin 3 → Option ℝ) := ⟨0, 2, 0, 2, rfl, rfl, by norm_num⟩
/-- The hypothesis of `C97_constant_column`: a value that occurs twice, and a missing one. -/
example : ¬ Varies (![some 2, none, some 2] : Fin 3 → Option ℝ) := by
  rintro ⟨i, j, a, b, hi, hj, hab⟩
  fin_cases i <;> fin_cases j <;> simp_all
example : standardise (List.ofFn ![some 0, some 1, some 2]) = [some (-1), some 0, some 1] := standard_first

end Verif
