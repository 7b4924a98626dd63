import Verif.Lemmas.Loss
import Verif.Props.FlowDatasets
import Verif.Props.Experiment
import Verif.Props.Unbatching
import Mathlib.Algebra.Order.BigOperators.Group.Finset

/-!
# C96: the loss of a batch and the mean loss of a split, with labels missing
-/

namespace Verif

variable {F : Type}

/-- **C96.** The loss of a batch (exp/train_utils.py:58-69, 123-135), for the criteria that compare entries. Let `n`
complexes carry labels for `T` targets, some of them missing, and let a model give a row of `T` numbers for each. Then
the targets of the batch are the labels, in order; the loss is the mean error of the labels that are present, each
compared with the number that the model gives for its complex and its target; and it is NaN exactly if no label of the
batch is present. -/
theorem C96_loss_of_a_batch {n T : Nat} (f : ℚ → ℚ → ℚ) (c : Fin n → Complex F (Option ℚ))
    (y : Fin n → Fin T → Option ℚ) (hy : ∀ i, (c i).y = some (List.ofFn (y i))) (mB : Nat) (B : Complex F (Option ℚ))
    (hB : fromComplexList (List.ofFn c) mB = .ok B) (p : Fin n → Fin T → ℚ) :
    ∃ ys, B.targets = .ok ys ∧
      viewAs (matrixRows p) ys = .ok (matrixRows y) ∧
      maskedLoss f (matrixRows p) ys = .ok (meanError f p y) ∧
      (maskedLoss f (matrixRows p) ys = .ok none ↔ ∀ i t, y i t = none) := by
  have hb := (C06_batch_labels_dimension_size _ mB B hB).2.2.2.2.2.1 (by
    intro comp hc
    obtain ⟨i, rfl⟩ := (List.mem_ofFn' c comp).mp hc
    rw [hy i]; rfl)
  have hys : ((List.ofFn c).flatMap fun comp => comp.y.getD []) = (matrixRows y).flatten := by
    rw [List.flatMap_def, List.map_ofFn]
    unfold matrixRows
    congr 2
    funext i
    simp [hy i]
  rw [hys] at hb
  refine ⟨_, by unfold Complex.targets; rw [hb], viewAs_flatten _ _ (matrixRows_lengths y p), maskedLoss_matrix f p y, ?_⟩
  rw [maskedLoss_matrix, ok_inj]
  unfold meanError
  constructor
  · intro h i t
    by_contra hne
    have hm : (i, t) ∈ labelled y := by
      unfold labelled
      simpa using Option.isSome_iff_ne_none.mpr hne
    rw [if_neg (Finset.ne_empty_of_mem hm)] at h
    cases h
  · intro h
    rw [if_pos]
    unfold labelled
    simp [h]

/-- **C96.** A model with a wrong number of outputs: `RuntimeError`, for every batch that is not empty. -/
theorem C96_wrong_number_of_outputs {n T O : Nat} (hn : n ≠ 0) (hO : O ≠ T) (f : ℚ → ℚ → ℚ)
    (y : Fin n → Fin T → Option ℚ) (p : Fin n → Fin O → ℚ) :
    maskedLoss f (matrixRows p) (matrixRows y).flatten = .error .runtime := by
  apply maskedLoss_error
  rw [List.length_flatten]
  have h : ∀ {U : Nat} {α : Type} (q : Fin n → Fin U → α), ((matrixRows q).map List.length).sum = n * U := by
    intro U α q
    simp [matrixRows, List.map_ofFn, Function.comp_def]
  rw [h, h]
  intro he
  exact hO (Nat.eq_of_mul_eq_mul_left (Nat.pos_of_ne_zero hn) he).symm

/-- **C96.** What a model says where a label is missing does not matter. -/
theorem C96_missing_labels_do_not_matter {n T : Nat} (f : ℚ → ℚ → ℚ) (y : Fin n → Fin T → Option ℚ)
    (p p' : Fin n → Fin T → ℚ) (h : ∀ i t, y i t ≠ none → p i t = p' i t) :
    maskedLoss f (matrixRows p) (matrixRows y).flatten = maskedLoss f (matrixRows p') (matrixRows y).flatten := by
  rw [maskedLoss_matrix, maskedLoss_matrix]
  unfold meanError
  have : ∑ e ∈ labelled y, f (p e.1 e.2) ((y e.1 e.2).getD 0) =
      ∑ e ∈ labelled y, f (p' e.1 e.2) ((y e.1 e.2).getD 0) := by
    refine Finset.sum_congr rfl fun e he => ?_
    rw [h]
    unfold labelled at he
    exact Option.isSome_iff_ne_none.mp (Finset.mem_filter.mp he).2
  rw [this]

/-- **C96.** Neither does the order of the complexes of a batch, nor the order of the targets. -/
theorem C96_order_does_not_matter {n T : Nat} (f : ℚ → ℚ → ℚ) (y : Fin n → Fin T → Option ℚ)
    (p : Fin n → Fin T → ℚ) (σ : Equiv.Perm (Fin n)) (τ : Equiv.Perm (Fin T)) :
    maskedLoss f (matrixRows fun i t => p (σ i) (τ t)) (matrixRows fun i t => y (σ i) (τ t)).flatten =
      maskedLoss f (matrixRows p) (matrixRows y).flatten := by
  rw [maskedLoss_matrix, maskedLoss_matrix]
  have hmap : labelled y = (labelled fun i t => y (σ i) (τ t)).map (Equiv.prodCongr σ τ).toEmbedding := by
    ext ⟨i, t⟩
    simp only [labelled, Finset.mem_map_equiv, Finset.mem_filter, Finset.mem_univ, true_and]
    simp
  unfold meanError
  rw [hmap, Finset.sum_map, Finset.card_map]
  simp only [Finset.map_eq_empty]
  rfl

/-- **C96.** For the tasks `regression` and `mse_regression` the loss is not negative, and it is zero exactly if a
label is present and every label that is present is met. -/
theorem C96_zero_loss (bce : ℚ → ℚ → ℚ) (task : Task) (htask : task = .regression ∨ task = .mseRegression)
    (f : ℚ → ℚ → ℚ) (hf : task.errorOf bce = some f) {n T : Nat} (y : Fin n → Fin T → Option ℚ)
    (p : Fin n → Fin T → ℚ) :
    (∀ l, maskedLoss f (matrixRows p) (matrixRows y).flatten = .ok (some l) → 0 ≤ l) ∧
    (maskedLoss f (matrixRows p) (matrixRows y).flatten = .ok (some 0) ↔
      (∃ i t, y i t ≠ none) ∧ ∀ i t v, y i t = some v → p i t = v) := by
  have hpos : (∀ a b, 0 ≤ f a b) ∧ ∀ a b, f a b = 0 ↔ a = b := by
    rcases htask with rfl | rfl <;> cases hf
    · exact ⟨fun a b => abs_nonneg _, fun a b => by rw [abs_eq_zero, sub_eq_zero]⟩
    · exact ⟨fun a b => sq_nonneg _, fun a b => by rw [sq_eq_zero_iff, sub_eq_zero]⟩
  have hsum : 0 ≤ ∑ e ∈ labelled y, f (p e.1 e.2) ((y e.1 e.2).getD 0) := Finset.sum_nonneg fun e _ => hpos.1 _ _
  rw [maskedLoss_matrix]
  unfold meanError
  constructor
  · intro l hl
    rw [ok_inj] at hl
    split at hl
    · cases hl
    · cases hl
      exact div_nonneg hsum (Nat.cast_nonneg _)
  · rw [ok_inj]
    by_cases hE : labelled y = ∅
    · rw [if_pos hE]
      simp only [reduceCtorEq, false_iff, not_and]
      rintro ⟨i, t, h⟩
      have : (i, t) ∈ labelled y := by
        unfold labelled; simpa using Option.isSome_iff_ne_none.mpr h
      rw [hE] at this
      simp at this
    · rw [if_neg hE, Option.some.injEq, div_eq_zero_iff, Finset.sum_eq_zero_iff_of_nonneg fun e _ => hpos.1 _ _]
      have hc : ((labelled y).card : ℚ) ≠ 0 := by
        simpa using hE
      simp only [hc, or_false]
      obtain ⟨⟨i, t⟩, hm⟩ := Finset.nonempty_iff_ne_empty.mpr hE
      constructor
      · intro h
        refine ⟨⟨i, t, ?_⟩, ?_⟩
        · unfold labelled at hm
          exact Option.isSome_iff_ne_none.mp (Finset.mem_filter.mp hm).2
        · intro i t v hv
          have := h (i, t) (by unfold labelled; simp [hv])
          rw [hpos.2] at this
          simpa [hv] using this
      · rintro ⟨_, h⟩ ⟨i, t⟩ he
        unfold labelled at he
        obtain ⟨v, hv⟩ := Option.isSome_iff_exists.mp (Finset.mem_filter.mp he).2
        rw [hpos.2]
        simp only at hv ⊢
        rw [hv]
        exact h i t v hv

/-- **C96.** Classification: with one class per complex the loss is the mean of what the criterion gives for the rows;
`IndexError` when there are more or fewer labels than rows, and when a class has no output of its own. -/
theorem C96_classification (nll : List ℚ → Nat → ℚ) :
    (∀ {n C : Nat} (p : Fin n → Fin C → ℚ) (y : Fin n → Fin C), n ≠ 0 →
      classLoss nll (matrixRows p) (List.ofFn fun i => (y i : Nat)) =
        .ok (some ((∑ i, nll (List.ofFn (p i)) (y i)) / n))) ∧
    (∀ (pred : List (List ℚ)) (y : List Nat), y.length ≠ pred.length → classLoss nll pred y = .error .index) ∧
    (∀ {n C : Nat} (p : Fin n → Fin C → ℚ) (y : Fin n → Nat), (∃ i, C ≤ y i) →
      classLoss nll (matrixRows p) (List.ofFn y) = .error .index) := by
  refine ⟨?_, ?_, ?_⟩
  · intro n C p y hn
    unfold classLoss
    rw [if_neg (by simp [matrixRows])]
    show (mapE _ _ >>= _) = _
    unfold matrixRows
    rw [zip_ofFn, mapE_ok (g := fun e => nll e.1 e.2), List.map_ofFn]
    · show Except.ok _ = _
      congr 1
      unfold meanLoss
      rw [if_neg (by rw [List.ofFn_eq_nil_iff]; exact hn), List.sum_ofFn, List.length_ofFn]
      rfl
    · intro e he
      obtain ⟨i, rfl⟩ := (List.mem_ofFn' _ e).mp he
      unfold classError
      rw [if_pos]
      simp
  · intro pred y h
    unfold classLoss
    rw [if_pos h]; rfl
  · rintro n C p y ⟨i, hi⟩
    unfold classLoss
    rw [if_neg (by simp [matrixRows])]
    show (mapE _ _ >>= _) = _
    unfold matrixRows
    rw [zip_ofFn]
    rw [mapE_error (e := .index)]
    · rfl
    · intro a ha
      obtain ⟨j, rfl⟩ := (List.mem_ofFn' _ a).mp ha
      unfold classError
      split
      · exact .inl ⟨_, rfl⟩
      · exact .inr rfl
    · refine ⟨_, (List.mem_ofFn' _ _).mpr ⟨i, rfl⟩, ?_⟩
      unfold classError
      rw [if_neg]
      simp; exact hi

/-- **C96.** The mean loss of a split (exp/train_utils.py:104-143): when every batch has equally many labels, it is the
loss of all the data at once. -/
theorem C96_mean_loss_of_equal_batches (f : ℚ → ℚ → ℚ) (loader : List (List (List ℚ) × List (Option ℚ)))
    (hne : loader ≠ []) (hshape : ∀ b ∈ loader, b.2.length = (b.1.map List.length).sum) (m : Nat) (hm : m ≠ 0)
    (hcount : ∀ b ∈ loader, (b.2.countP fun y => y.isSome) = m) :
    splitLoss (maskedLoss f) loader = maskedLoss f (loader.flatMap Prod.fst) (loader.flatMap Prod.snd) := by
  have hlen : ∀ b ∈ loader, (errorsOf f (b.1.flatten.zip b.2)).length = m := by
    intro b hb
    rw [length_errorsOf, ← hcount b hb, countP_zip_snd]
    rw [List.length_flatten, hshape b hb]
  have hlist : ∀ b ∈ loader, maskedLoss f b.1 b.2 = .ok (some ((errorsOf f (b.1.flatten.zip b.2)).sum / m)) := by
    intro b hb
    rw [maskedLoss_ok _ _ _ (hshape b hb)]
    unfold meanLoss
    rw [if_neg, hlen b hb]
    intro h0
    have := hlen b hb
    rw [h0] at this
    exact hm this.symm
  have hwhole := flatMap_errors f loader hshape
  have hsize : (loader.flatMap Prod.snd).length = ((loader.flatMap Prod.fst).map List.length).sum := by
    clear hlist hlen hwhole hcount hne
    induction loader with
    | nil => rfl
    | cons b loader ih =>
      simp only [List.flatMap_cons, List.length_append, List.map_append, List.sum_append]
      rw [hshape b (by simp), ih fun b hb => hshape b (by simp [hb])]
  rw [maskedLoss_ok _ _ _ hsize, hwhole]
  unfold splitLoss
  rw [mapE_ok (g := fun b => some ((errorsOf f (b.1.flatten.zip b.2)).sum / m)) hlist]
  show Except.ok _ = _
  congr 1
  unfold meanOrNaN
  rw [if_neg (by simp)]
  have hred : (loader.map fun b => some ((errorsOf f (b.1.flatten.zip b.2)).sum / (m : ℚ))).reduceOption =
      loader.map fun b => (errorsOf f (b.1.flatten.zip b.2)).sum / (m : ℚ) := by
    unfold List.reduceOption
    rw [List.filterMap_map]
    simp
  rw [hred]
  have hsum : ∀ l : List (List (List ℚ) × List (Option ℚ)),
      (l.map fun b => (errorsOf f (b.1.flatten.zip b.2)).sum / (m : ℚ)).sum =
        (l.flatMap fun b => errorsOf f (b.1.flatten.zip b.2)).sum / m := by
    intro l
    induction l with
    | nil => simp
    | cons b l ih => simp only [List.map_cons, List.sum_cons, List.flatMap_cons, List.sum_append, ih, add_div]
  have htotal : (loader.flatMap fun b => errorsOf f (b.1.flatten.zip b.2)).length = loader.length * m := by
    clear hlist hwhole hsize hred hsum hne hcount hshape
    induction loader with
    | nil => simp
    | cons b loader ih =>
      simp only [List.flatMap_cons, List.length_append, List.length_cons]
      rw [hlen b (by simp), ih fun b hb => hlen b (by simp [hb])]; ring
  have hk : loader.length ≠ 0 := by simpa using hne
  unfold meanLoss
  rw [if_neg (by simpa using hne), if_neg, hsum, htotal, List.length_map]
  · congr 1
    push_cast
    rw [div_div, mul_comm (m : ℚ)]
  · intro h0
    rw [h0] at htotal
    exact Nat.mul_ne_zero hk hm htotal.symm

/-- **C96.** Otherwise it need not be: with two complexes in the first batch and one in the second, the mean loss is
one and a half while the mean absolute error of the split is one. -/
theorem C96_mean_loss_is_not_the_error :
    ∃ loader : List (List (List ℚ) × List (Option ℚ)),
      splitLoss (maskedLoss fun p t => |p - t|) loader = .ok (some (3 / 2)) ∧
      maskedLoss (fun p t => |p - t|) (loader.flatMap Prod.fst) (loader.flatMap Prod.snd) = .ok (some 1) ∧
      (do let y ← viewAs (loader.flatMap Prod.fst) (loader.flatMap Prod.snd)
          maeOfArrays (loader.flatMap Prod.fst) y) = .ok 1 :=
  ⟨[([[1], [2]], [some 1, some 2]), ([[0]], [some 3])], by decide +kernel, by decide +kernel, by decide +kernel⟩

/-- **C96.** A batch without any label makes the mean loss of its split NaN, whatever the other batches are. -/
theorem C96_batch_without_labels (f : ℚ → ℚ → ℚ) (loader : List (List (List ℚ) × List (Option ℚ)))
    (hshape : ∀ b ∈ loader, b.2.length = (b.1.map List.length).sum)
    (h : ∃ b ∈ loader, ∀ y ∈ b.2, y = none) : splitLoss (maskedLoss f) loader = .ok none := by
  unfold splitLoss
  rw [mapE_ok (g := fun b => meanLoss (errorsOf f (b.1.flatten.zip b.2)))
    fun b hb => maskedLoss_ok _ _ _ (hshape b hb)]
  show Except.ok _ = _
  congr 1
  unfold meanOrNaN
  rw [if_pos]
  obtain ⟨b, hb, hnone⟩ := h
  refine List.mem_map.mpr ⟨b, hb, ?_⟩
  have : errorsOf f (b.1.flatten.zip b.2) = [] := by
    unfold errorsOf
    rw [List.filterMap_eq_nil_iff]
    intro e he
    rw [hnone _ (List.of_mem_zip he).2]; rfl
  rw [this]; rfl

/-- **C96.** The metric `mae` does not skip missing labels: it raises `ValueError` as soon as one label is missing; when
none is, it is the loss of the task `regression` on all the data at once. -/
theorem C96_mae {n T : Nat} (y : Fin n → Fin T → Option ℚ) (p : Fin n → Fin T → ℚ) :
    ((∃ i t, y i t = none) → maeOfArrays (matrixRows p) (matrixRows y) = .error .value) ∧
    (n * T ≠ 0 → (∀ i t, y i t ≠ none) →
      ∃ v, maeOfArrays (matrixRows p) (matrixRows y) = .ok v ∧
        maskedLoss (fun p t => |p - t|) (matrixRows p) (matrixRows y).flatten = .ok (some v)) := by
  constructor
  · rintro ⟨i, t, h⟩
    unfold maeOfArrays
    rw [if_pos]
    rw [List.mem_flatten]
    exact ⟨_, (List.mem_ofFn' _ _).mpr ⟨i, rfl⟩, (List.mem_ofFn' _ _).mpr ⟨t, h⟩⟩
  · intro hnT hall
    choose v hv using fun i t => Option.ne_none_iff_exists'.mp (hall i t)
    have hy : y = fun i t => some (v i t) := by funext i t; exact hv i t
    subst hy
    have hred : (matrixRows fun i t => some (v i t)).flatten.reduceOption = (matrixRows v).flatten := by
      rw [← map_matrixRows]
      unfold List.reduceOption
      rw [List.filterMap_map]
      exact List.filterMap_some
    have hlen : ∀ {α : Type} (q : Fin n → Fin T → α), (matrixRows q).flatten.length = n * T := by
      intro α q
      simp [matrixRows, List.length_flatten, List.map_ofFn, Function.comp_def]
    refine ⟨(((matrixRows v).flatten.zip (matrixRows p).flatten).map fun e => |e.1 - e.2|).sum / ((n * T : Nat) : ℚ),
      ?_, ?_⟩
    · unfold maeOfArrays
      rw [if_neg, if_pos (matrixRows_lengths _ _), hred]
      · unfold absoluteError
        rw [if_pos, hlen]
        refine ⟨by rw [hlen, hlen], ?_⟩
        intro h0
        have := hlen v
        rw [h0] at this
        exact hnT this.symm
      · rw [← map_matrixRows]
        simp
    · rw [maskedLoss_ok _ _ _ (by rw [List.length_flatten, matrixRows_lengths _ p])]
      have he : errorsOf (fun p t => |p - t|) ((matrixRows p).flatten.zip (matrixRows fun i t => some (v i t)).flatten) =
          ((matrixRows v).flatten.zip (matrixRows p).flatten).map fun e => |e.1 - e.2| := by
        rw [matrixRows_zip, matrixRows_zip, map_matrixRows]
        unfold errorsOf
        have : (matrixRows fun i t => (p i t, some (v i t))).flatten =
            (matrixRows fun i t => (v i t, p i t)).flatten.map fun e => (e.2, some e.1) := by
          rw [map_matrixRows]
        rw [this, List.filterMap_map, ← map_matrixRows (fun e : ℚ × ℚ => |e.1 - e.2|) fun i t => (v i t, p i t)]
        rw [← List.filterMap_eq_map]
        congr 1
        funext e
        simp [abs_sub_comm]
      rw [he]
      unfold meanLoss
      rw [if_neg, List.length_map, List.length_zip, hlen, hlen, Nat.min_self]
      intro h0
      have := congrArg List.length h0
      rw [List.length_map, List.length_zip, hlen, hlen, Nat.min_self] at this
      exact hnT this

/-! ### Examples -/

namespace Fixtures

/-- Two vertices with labels for two targets, one of them missing. -/
def twoLabels : Complex Nat (Option ℚ) :=
  { dimension := 0, cochains := [{ dim := 0, x := some [1, 2] }], y := some [some 1, none] }

/-- A vertex with labels for two targets. -/
def moreLabels : Complex Nat (Option ℚ) :=
  { dimension := 0, cochains := [{ dim := 0, x := some [3] }], y := some [some 2, some (-1)] }

end Fixtures

/-- The hypotheses of `C96_loss_of_a_batch`: two complexes, two targets, three labels. -/
example : ∃ B, fromComplexList (List.ofFn ![Fixtures.twoLabels, Fixtures.moreLabels]) 2 = .ok B ∧
    ∀ i, (![Fixtures.twoLabels, Fixtures.moreLabels] i).y =
      some (List.ofFn ((![![some 1, none], ![some 2, some (-1)]] : Fin 2 → Fin 2 → Option ℚ) i)) :=
  ⟨_, rfl, by decide⟩
example : (do
    let B ← fromComplexList [Fixtures.twoLabels, Fixtures.moreLabels] 2
    let y ← B.targets
    maskedLoss (fun p t => |p - t|) [[3, 100], [2, 0]] y) = .ok (some 1) := by decide +kernel
example : (do
    let B ← fromComplexList [Fixtures.twoLabels, Fixtures.moreLabels] 2
    let y ← B.targets
    maskedLoss (fun p t => (p - t) ^ 2) [[3, 7], [2, 0]] y) = .ok (some (5 / 3)) := by decide +kernel
/-- One output instead of two. -/
example : maskedLoss (fun p t => |p - t|) [[3], [2]] [some 1, none, some 2, some (-1)] = .error .runtime := by
  decide +kernel
/-- `C96_missing_labels_do_not_matter`: predictions that differ at the missing label only. -/
example : ∀ i t, (![![some 1, none], ![some 2, some (-1)]] : Fin 2 → Fin 2 → Option ℚ) i t ≠ none →
    (![![3, 100], ![2, 0]] : Fin 2 → Fin 2 → ℚ) i t = (![![3, 7], ![2, 0]] : Fin 2 → Fin 2 → ℚ) i t := by decide
/-- `C96_zero_loss`: all labels that are present are met. -/
example : maskedLoss (fun p t => (p - t) ^ 2) [[1, 100], [2, -1]] [some 1, none, some 2, some (-1)] = .ok (some 0) := by
  decide +kernel
example : Task.mseRegression.errorOf (fun _ _ => 0) = some fun p t => (p - t) ^ 2 := rfl
/-- `C96_classification`, with the logit of the class for the criterion. -/
example : classLoss (fun row k => -(row[k]?.getD 0)) [[1, 2], [3, 5]] [1, 0] = .ok (some (-5 / 2)) := by decide +kernel
example : classLoss (fun row k => -(row[k]?.getD 0)) [[1, 2], [3, 5]] [1, 2] = .error .index := by decide +kernel
/-- `C96_mean_loss_of_equal_batches`: two batches with two labels each, on two and on three complexes. -/
example : ∀ b ∈ ([([[1], [2]], [some 1, some 4]), ([[0], [0], [0]], [some 3, none, some 5])] :
    List (List (List ℚ) × List (Option ℚ))),
    b.2.length = (b.1.map List.length).sum ∧ (b.2.countP fun y => y.isSome) = 2 := by decide
example : splitLoss (maskedLoss fun p t => |p - t|)
    [([[1], [2]], [some 1, some 4]), ([[0], [0], [0]], [some 3, none, some 5])] = .ok (some (5 / 2)) := by decide +kernel
/-- `C96_batch_without_labels`. -/
example : splitLoss (maskedLoss fun p t => |p - t|) [([[1], [2]], [some 1, some 4]), ([[0]], [none])] = .ok none := by
  decide +kernel
/-- `C96_mae`. -/
example : maeOfArrays [[1, 2], [2, 3]] [[some 1, some 4], [some 0, some 3]] = .ok 1 ∧
    maeOfArrays [[1, 2], [2, 3]] [[some 1, none], [some 0, some 3]] = .error .value := by decide +kernel

end Verif
