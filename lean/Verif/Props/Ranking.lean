import Verif.Lemmas.Ranking

/-!
# C111: average precision and ROC-AUC
-/

namespace Verif

variable {α β : Type} [LinearOrder α] [LinearOrder β]

/-! ### One column -/

/-- **C111** The average precision of a column, computed along the curve of thresholds, is the mean over the positives
of the precision at their score; 0 without positives. -/
theorem C111_average_precision_of_a_column (l : List (α × Bool)) : apBinary l = apOf l := apBinary_eq l

/-- **C111** The area under the curve of a column is the probability that a random positive scores higher than a
random negative, where equal scores count half. -/
theorem C111_roc_auc_of_a_column (l : List (α × Bool)) : rocAuc l = aucOf l := rocAuc_eq l

theorem RankKey.score_eq (key : RankKey) (l : List (α × Bool)) : key.score l = key.meaning l := by
  cases key
  · exact rocAuc_eq l
  · exact apBinary_eq l

theorem precisionAt_nonneg (l : List (α × Bool)) (s : α) : 0 ≤ precisionAt l s := by
  exact div_nonneg (Nat.cast_nonneg _) (Nat.cast_nonneg _)

theorem precisionAt_le_one (l : List (α × Bool)) (s : α) : precisionAt l s ≤ 1 := by
  unfold precisionAt
  apply div_le_one_of_le₀ _ (by positivity)
  rw [← List.countP_eq_length_filter, ← List.countP_eq_length_filter]
  exact_mod_cast List.countP_mono_left fun a _ h => by simp at h; simpa using h.1

theorem precisionAt_eq_one {l : List (α × Bool)} {p : α × Bool} (hp : p ∈ l) :
    precisionAt l p.1 = 1 ↔ ∀ n ∈ l, n.2 = false → n.1 < p.1 := by
  rw [precisionAt_eq]
  have hpos : 0 < (atLeast l p.1).1 + (atLeast l p.1).2 := by
    unfold atLeast
    cases hb : p.2 with
    | true =>
      have : 0 < l.countP fun a => decide (p.1 ≤ a.1) && a.2 := List.countP_pos_iff.mpr ⟨p, hp, by simp [hb]⟩
      simp only
      omega
    | false =>
      have : 0 < l.countP fun a => decide (p.1 ≤ a.1) && !a.2 := List.countP_pos_iff.mpr ⟨p, hp, by simp [hb]⟩
      simp only
      omega
  have hq : ((((atLeast l p.1).1 + (atLeast l p.1).2 : Nat) : ℚ)) ≠ 0 := by exact_mod_cast hpos.ne'
  rw [div_eq_one_iff_eq hq]
  have : ((atLeast l p.1).1 : ℚ) = (((atLeast l p.1).1 + (atLeast l p.1).2 : Nat) : ℚ) ↔ (atLeast l p.1).2 = 0 := by
    norm_cast
    omega
  rw [this]
  unfold atLeast
  simp only [List.countP_eq_zero, Bool.and_eq_true, decide_eq_true_eq, Bool.not_eq_true', not_and]
  constructor
  · intro h n hn hb
    by_contra hlt
    exact h n hn (not_lt.mp hlt) hb
  · intro h n hn hle hb
    exact absurd (h n hn hb) (not_lt.mpr hle)

theorem sum_le_length {γ : Type} {l : List γ} {f : γ → ℚ} (h : ∀ a ∈ l, f a ≤ 1) : (l.map f).sum ≤ (l.length : ℚ) := by
  induction l with
  | nil => simp
  | cons a l ih =>
    have h1 := h a (by simp)
    have h2 := ih fun x hx => h x (by simp [hx])
    simp only [List.map_cons, List.sum_cons, List.length_cons]
    push_cast
    linarith

theorem sum_eq_length {γ : Type} {l : List γ} {f : γ → ℚ} (h : ∀ a ∈ l, f a ≤ 1) :
    (l.map f).sum = (l.length : ℚ) ↔ ∀ a ∈ l, f a = 1 := by
  induction l with
  | nil => simp
  | cons a l ih =>
    have h1 := h a (by simp)
    have hl : ∀ x ∈ l, f x ≤ 1 := fun x hx => h x (by simp [hx])
    have h2 := sum_le_length hl
    simp only [List.map_cons, List.sum_cons, List.length_cons, List.forall_mem_cons, ← ih hl]
    push_cast
    constructor
    · intro e
      constructor <;> linarith
    · rintro ⟨e1, e2⟩
      linarith

theorem labelCount_filter (l : List (α × Bool)) : labelCount true l = (l.filter fun a => a.2).length := by
  rw [labelCount_true, List.countP_eq_length_filter]

/-- **C111** Average precision and ROC-AUC lie between 0 and 1. -/
theorem C111_between_zero_and_one (key : RankKey) (l : List (α × Bool)) : 0 ≤ key.score l ∧ key.score l ≤ 1 := by
  rw [key.score_eq]
  have hd : ∀ p n : α, 0 ≤ duel p n ∧ duel p n ≤ 1 := by
    intro p n
    unfold duel
    split
    · norm_num
    · split <;> norm_num
  cases key with
  | ap =>
    constructor
    · refine div_nonneg (List.sum_nonneg ?_) (by positivity)
      intro x hx
      obtain ⟨a, -, rfl⟩ := List.mem_map.mp hx
      exact precisionAt_nonneg l a.1
    · refine div_le_one_of_le₀ ?_ (by positivity)
      rw [labelCount_filter]
      exact sum_le_length fun a _ => precisionAt_le_one l a.1
  | rocauc =>
    constructor
    · refine div_nonneg (List.sum_nonneg ?_) (by positivity)
      intro x hx
      obtain ⟨a, -, rfl⟩ := List.mem_map.mp hx
      refine List.sum_nonneg ?_
      intro x hx
      obtain ⟨b, -, rfl⟩ := List.mem_map.mp hx
      exact (hd _ _).1
    · refine div_le_one_of_le₀ ?_ (by positivity)
      have h1 : ∀ n ∈ l.filter (fun a => !a.2), ((l.filter fun a => a.2).map fun p => duel p.1 n.1).sum ≤
          (labelCount true l : ℚ) := by
        intro n _
        rw [labelCount_filter]
        exact sum_le_length fun p _ => (hd _ _).2
      have h2 : ((l.filter fun a => !a.2).map fun n => ((l.filter fun a => a.2).map fun p => duel p.1 n.1).sum).sum ≤
          ((l.filter fun a => !a.2).map fun _ => (labelCount true l : ℚ)).sum := List.sum_le_sum h1
      rw [List.map_const', List.sum_replicate, ← List.countP_eq_length_filter, ← labelCount_false, nsmul_eq_mul,
        mul_comm] at h2
      exact h2

/-- **C111** Both are 1 exactly if every positive scores higher than every negative. -/
theorem C111_perfect_scores (key : RankKey) (l : List (α × Bool)) (h : BothLabels l) :
    key.score l = 1 ↔ Separated l := by
  rw [key.score_eq]
  have hP : (labelCount true l : ℚ) ≠ 0 := by exact_mod_cast h.1.ne'
  have hN : (labelCount false l : ℚ) ≠ 0 := by exact_mod_cast h.2.ne'
  cases key with
  | ap =>
    rw [RankKey.meaning, apOf, div_eq_one_iff_eq hP, labelCount_filter,
      sum_eq_length fun a _ => precisionAt_le_one l a.1]
    constructor
    · intro h1 p hp n hn hb hb'
      exact (precisionAt_eq_one hp).mp (h1 p (List.mem_filter.mpr ⟨hp, hb⟩)) n hn hb'
    · intro h1 p hp
      obtain ⟨hp, hb⟩ := List.mem_filter.mp hp
      exact (precisionAt_eq_one hp).mpr fun n hn hb' => h1 p hp n hn hb hb'
  | rocauc =>
    have hle : ∀ p n : α, duel p n ≤ 1 := by
      intro p n
      unfold duel
      split
      · norm_num
      · split <;> norm_num
    have hone : ∀ p n : α, duel p n = 1 ↔ n < p := by
      intro p n
      unfold duel
      split
      · simpa
      · rename_i hlt
        split <;> norm_num <;> simpa using hlt
    rw [RankKey.meaning, aucOf, div_eq_one_iff_eq (mul_ne_zero hP hN)]
    have hscale : ((l.filter fun a => !a.2).map fun n => ((l.filter fun a => a.2).map fun p => duel p.1 n.1).sum).sum =
        ((l.filter fun a => !a.2).map fun n =>
          ((l.filter fun a => a.2).map fun p => duel p.1 n.1).sum * (labelCount true l : ℚ)⁻¹).sum *
          (labelCount true l : ℚ) := by
      rw [← sum_map_mul_right', mul_assoc, inv_mul_cancel₀ hP, mul_one]
    rw [hscale, mul_comm (labelCount true l : ℚ), mul_left_inj' hP, labelCount_false, List.countP_eq_length_filter,
      sum_eq_length]
    · constructor
      · intro h1 p hp n hn hb hb'
        have h2 := h1 n (List.mem_filter.mpr ⟨hn, by simp [hb']⟩)
        rw [mul_inv_eq_one₀ hP, labelCount_filter, sum_eq_length fun a _ => hle _ _] at h2
        exact (hone _ _).mp (h2 p (List.mem_filter.mpr ⟨hp, hb⟩))
      · intro h1 n hn
        obtain ⟨hn, hb'⟩ := List.mem_filter.mp hn
        rw [mul_inv_eq_one₀ hP, labelCount_filter, sum_eq_length fun a _ => hle _ _]
        intro p hp
        obtain ⟨hp, hb⟩ := List.mem_filter.mp hp
        exact (hone _ _).mpr (h1 p hp n hn hb (by simpa using hb'))
    · intro n _
      rw [← div_eq_mul_inv]
      refine div_le_one_of_le₀ ?_ (by positivity)
      rw [labelCount_filter]
      exact sum_le_length fun a _ => hle _ _

/-- **C111** Scores that do not distinguish anything: the average precision is the share of positives, the ROC-AUC is a
half. -/
theorem C111_constant_scores (l : List (α × Bool)) (s : α) (hs : ∀ a ∈ l, a.1 = s) (h : BothLabels l) :
    RankKey.ap.score l = (labelCount true l : ℚ) / (l.length : ℚ) ∧ RankKey.rocauc.score l = 1 / 2 := by
  have hP : (labelCount true l : ℚ) ≠ 0 := by exact_mod_cast h.1.ne'
  have hN : (labelCount false l : ℚ) ≠ 0 := by exact_mod_cast h.2.ne'
  rw [RankKey.score_eq, RankKey.score_eq]
  constructor
  · have hp : ∀ a ∈ l, precisionAt l a.1 = (labelCount true l : ℚ) / (l.length : ℚ) := by
      intro a ha
      rw [precisionAt, hs a ha, labelCount_true, List.countP_eq_length_filter]
      congr 3
      · apply List.filter_congr
        intro b hb
        simp [hs b hb]
      · rw [List.filter_eq_self]
        intro b hb
        simp [hs b hb]
    have : ((l.filter fun a => a.2).map fun a => precisionAt l a.1) =
        (l.filter fun a => a.2).map fun _ => (labelCount true l : ℚ) / (l.length : ℚ) :=
      List.map_congr_left fun a ha => hp a (List.mem_of_mem_filter ha)
    rw [RankKey.meaning, apOf, this, List.map_const', List.sum_replicate, ← labelCount_filter, nsmul_eq_mul]
    field_simp
  · have : ((l.filter fun a => !a.2).map fun n => ((l.filter fun a => a.2).map fun p => duel p.1 n.1).sum) =
        (l.filter fun a => !a.2).map fun _ => (labelCount true l : ℚ) * (1 / 2) := by
      apply List.map_congr_left
      intro n hn
      have : ((l.filter fun a => a.2).map fun p => duel p.1 n.1) = (l.filter fun a => a.2).map fun _ => (1 / 2 : ℚ) := by
        apply List.map_congr_left
        intro p hp
        rw [hs n (List.mem_of_mem_filter hn), hs p (List.mem_of_mem_filter hp)]
        simp [duel]
      rw [this, List.map_const', List.sum_replicate, ← labelCount_filter, nsmul_eq_mul]
    rw [RankKey.meaning, aucOf, this, List.map_const', List.sum_replicate, ← List.countP_eq_length_filter,
      ← labelCount_false, nsmul_eq_mul]
    field_simp

/-- **C111** Ranking the other way round (a strictly decreasing function of the scores) turns the ROC-AUC `a` into
`1 - a`. -/
theorem C111_reversed_scores (f : α → β) (hf : ∀ a b, a < b → f b < f a) (l : List (α × Bool)) (h : BothLabels l) :
    rocAuc (l.map fun a => (f a.1, a.2)) = 1 - rocAuc l := by
  have hP : (labelCount true l : ℚ) ≠ 0 := by exact_mod_cast h.1.ne'
  have hN : (labelCount false l : ℚ) ≠ 0 := by exact_mod_cast h.2.ne'
  have hd : ∀ p n : α, duel (f p) (f n) = 1 - duel p n := by
    intro p n
    unfold duel
    rcases lt_trichotomy p n with h | h | h
    · rw [if_pos (hf _ _ h), if_neg h.le.not_gt, if_neg h.ne']
      norm_num
    · subst h
      simp
      norm_num
    · rw [if_pos h, if_neg (hf _ _ h).le.not_gt, if_neg (hf _ _ h).ne']
      norm_num
  have hc : ∀ b, labelCount b (l.map fun a => (f a.1, a.2)) = labelCount b l := by
    intro b
    unfold labelCount
    rw [List.filter_map, List.length_map]
    rfl
  have hsub : ∀ {γ : Type} (m : List γ) (g : γ → ℚ), (m.map fun a => 1 - g a).sum = (m.length : ℚ) - (m.map g).sum := by
    intro γ m g
    induction m with
    | nil => simp
    | cons a m ih =>
      simp only [List.map_cons, List.sum_cons, List.length_cons, ih]
      push_cast
      ring
  rw [rocAuc_eq, rocAuc_eq, aucOf, aucOf, hc, hc, List.filter_map, List.filter_map, List.map_map]
  have e : ((fun n : β × Bool => (((l.filter ((fun a => a.2) ∘ fun a : α × Bool => (f a.1, a.2))).map
        fun a => (f a.1, a.2)).map fun p => duel p.1 n.1).sum) ∘ fun a : α × Bool => (f a.1, a.2)) =
      fun n : α × Bool => (labelCount true l : ℚ) - ((l.filter fun a => a.2).map fun p => duel p.1 n.1).sum := by
    funext n
    simp only [Function.comp_def, List.map_map, hd]
    rw [hsub, labelCount_filter]
  rw [e]
  have hsub2 : ∀ (m : List (α × Bool)) (c : ℚ) (g : α × Bool → ℚ), (m.map fun a => c - g a).sum =
      (m.length : ℚ) * c - (m.map g).sum := by
    intro m c g
    induction m with
    | nil => simp
    | cons a m ih =>
      simp only [List.map_cons, List.sum_cons, List.length_cons, ih]
      push_cast
      ring
  rw [hsub2]
  have hl : (l.filter ((fun a : β × Bool => !a.2) ∘ fun a : α × Bool => (f a.1, a.2))) = l.filter fun a => !a.2 := rfl
  rw [hl, ← List.countP_eq_length_filter, ← labelCount_false]
  field_simp

/-- **C111** Both only depend on the order of the scores: a strictly increasing function of them changes nothing. So it
makes no difference that the networks give logits instead of probabilities. -/
theorem C111_only_the_order_matters (key : RankKey) (f : α → β) (hf : StrictMono f) (l : List (α × Bool)) :
    key.score (l.map fun a => (f a.1, a.2)) = key.score l := by
  have hc : ∀ b, labelCount b (l.map fun a => (f a.1, a.2)) = labelCount b l := by
    intro b
    unfold labelCount
    rw [List.filter_map, List.length_map]
    rfl
  rw [key.score_eq, key.score_eq]
  cases key with
  | ap =>
    have hp : ∀ s, precisionAt (l.map fun a => (f a.1, a.2)) (f s) = precisionAt l s := by
      intro s
      unfold precisionAt
      rw [List.filter_map, List.filter_map, List.length_map, List.length_map]
      simp only [Function.comp_def, hf.le_iff_le]
    rw [RankKey.meaning, RankKey.meaning, apOf, apOf, hc, List.filter_map, List.map_map]
    simp only [Function.comp_def, hp]
  | rocauc =>
    have hd : ∀ p n : α, duel (f p) (f n) = duel p n := by
      intro p n
      unfold duel
      simp only [hf.lt_iff_lt, hf.injective.eq_iff]
    rw [RankKey.meaning, RankKey.meaning, aucOf, aucOf, hc, hc, List.filter_map, List.filter_map, List.map_map]
    simp only [Function.comp_def, List.map_map, hd]

/-! ### Arrays -/

/-- **C111** `Evaluator._ap`: without labels an assertion fails, with a missing label it raises `ValueError`; otherwise it
gives the mean over all columns of their average precision. -/
theorem C111_evaluator_ap (yPred : List (List α)) :
    apMetric yPred none = .error .assertion ∧
    ∀ yTrue : List (List (Option Bool)),
      (none ∈ yTrue.flatten → apMetric yPred (some yTrue) = .error .value) ∧
      ∀ k, ArrayShape k yPred yTrue → 0 < k → yTrue ≠ [] → none ∉ yTrue.flatten →
        apMetric yPred (some yTrue) = .ok (((List.range k).map fun i => apOf (entries yPred yTrue i)).sum / (k : ℚ)) := by
  refine ⟨rfl, fun yTrue => ⟨fun h => ?_, fun k hs hk hne hn => ?_⟩⟩
  · unfold apMetric
    dsimp only
    rw [if_pos (.inr (.inr (.inr h)))]
  · unfold apMetric
    dsimp only
    rw [hs.width hne, if_neg (by
      rintro (h | h | h | h)
      · exact hne h
      · omega
      · rw [hs.shapeIs] at h; cases h
      · exact hn h)]
    simp only [labelledIn_scoreColumn, apBinary_eq]

/-- **C111** `Evaluator._ogb`: without labels an assertion fails; otherwise it gives the mean, over the columns in which
both labels occur, of the metric on the entries that have a label, and raises `RuntimeError` if there is no such
column. -/
theorem C111_evaluator_ogb (key : RankKey) (k : Nat) (yPred : List (List α)) :
    ogbMetric key k yPred none = .error .assertion ∧
    ∀ yTrue, ArrayShape k yPred yTrue → ∀ cols : List Nat,
      cols.Perm ((List.range k).filter fun i => decide (BothLabels (entries yPred yTrue i))) →
      (cols = [] → ogbMetric key k yPred (some yTrue) = .error .runtime) ∧
      (cols ≠ [] → ogbMetric key k yPred (some yTrue) =
        .ok ((cols.map fun i => key.meaning (entries yPred yTrue i)).sum / (cols.length : ℚ))) := by
  refine ⟨rfl, fun yTrue hs cols hp => ?_⟩
  have e := ogbMetric_eq key hs
  have hm : (((List.range k).filter fun i => decide (BothLabels (entries yPred yTrue i))).map
      fun i => key.meaning (entries yPred yTrue i)).Perm (cols.map fun i => key.meaning (entries yPred yTrue i)) :=
    (hp.map _).symm
  simp only [RankKey.score_eq] at e
  rw [e]
  constructor
  · rintro rfl
    rw [← hp.nil_eq]
    rfl
  · intro hne
    rw [if_neg, hm.sum_eq, hm.length_eq, List.length_map]
    intro h
    rw [h] at hm
    have := hm.nil_eq
    simp at this
    exact hne this

/-- **C111** Arrays of the wrong shape are rejected, with `ValueError` by `_ap` and with `RuntimeError` by OGB. -/
theorem C111_wrong_shapes (key : RankKey) (k : Nat) (yPred : List (List α)) (yTrue : List (List (Option Bool))) :
    ((∀ k, ¬ ArrayShape k yPred yTrue) → apMetric yPred (some yTrue) = .error .value) ∧
      (¬ ArrayShape k yPred yTrue → ogbMetric key k yPred (some yTrue) = .error .runtime) := by
  have h : ∀ k, ¬ ArrayShape k yPred yTrue → shapeIs k yPred yTrue = false := by
    intro k hn
    rw [Bool.eq_false_iff]
    intro hs
    unfold shapeIs at hs
    simp only [Bool.and_eq_true, beq_iff_eq, List.all_eq_true] at hs
    exact hn ⟨hs.1.1, hs.1.2, hs.2⟩
  constructor
  · intro hn
    unfold apMetric
    dsimp only
    rw [if_pos (.inr (.inr (.inl (h _ (hn _)))))]
  · intro hn
    unfold ogbMetric
    dsimp only
    rw [if_pos (h _ hn)]

/-- **C111** Neither metric depends on the order of the rows, in particular not on how the data are cut into batches
in another order. -/
theorem C111_order_of_rows (key : RankKey) (k : Nat) (hk : 0 < k) (yPred yPred' : List (List α))
    (yTrue yTrue' : List (List (Option Bool))) (hs : ArrayShape k yPred yTrue) (hs' : ArrayShape k yPred' yTrue')
    (hp : (yPred.zip yTrue).Perm (yPred'.zip yTrue')) :
    apMetric yPred (some yTrue) = apMetric yPred' (some yTrue') ∧
      ogbMetric key k yPred (some yTrue) = ogbMetric key k yPred' (some yTrue') := by
  have he : ∀ i, (entries yPred yTrue i).Perm (entries yPred' yTrue' i) := fun i => hp.filterMap _
  have hT : yTrue.Perm yTrue' := by
    have := hp.map Prod.snd
    rwa [List.map_snd_zip (by rw [hs.rows]), List.map_snd_zip (by rw [hs'.rows])] at this
  constructor
  · by_cases hne : yTrue = []
    · subst hne
      rw [← hT.nil_eq]
      simp [apMetric]
    · have hne' : yTrue' ≠ [] := by
        rintro rfl
        exact hne hT.eq_nil
      have hfl : none ∈ yTrue.flatten ↔ none ∈ yTrue'.flatten := hT.flatten.mem_iff
      by_cases hn : none ∈ yTrue.flatten
      · rw [((C111_evaluator_ap yPred).2 yTrue).1 hn, ((C111_evaluator_ap yPred').2 yTrue').1 (hfl.mp hn)]
      · rw [((C111_evaluator_ap yPred).2 yTrue).2 k hs hk hne hn,
          ((C111_evaluator_ap yPred').2 yTrue').2 k hs' hk hne' fun h => hn (hfl.mpr h)]
        simp only [apOf_perm (he _)]
  · rw [ogbMetric_eq key hs, ogbMetric_eq key hs']
    have h1 : ∀ i, BothLabels (entries yPred yTrue i) ↔ BothLabels (entries yPred' yTrue' i) := by
      intro i
      unfold BothLabels labelCount
      rw [((he i).filter _).length_eq, ((he i).filter _).length_eq]
    have h2 : ∀ i, key.score (entries yPred yTrue i) = key.score (entries yPred' yTrue' i) := by
      intro i
      rw [key.score_eq, key.score_eq]
      cases key
      · exact aucOf_perm (he i)
      · exact apOf_perm (he i)
    simp only [h1, h2]

/-- **C111** Strictly increasing functions, one for each column, change neither metric. -/
theorem C111_increasing_functions (key : RankKey) (k : Nat) (hk : 0 < k) (f : Nat → α → β)
    (hf : ∀ i, StrictMono (f i)) (yPred : List (List α)) (yTrue : List (List (Option Bool)))
    (hs : ArrayShape k yPred yTrue) :
    apMetric (yPred.map fun r => r.mapIdx f) (some yTrue) = apMetric yPred (some yTrue) ∧
      ogbMetric key k (yPred.map fun r => r.mapIdx f) (some yTrue) = ogbMetric key k yPred (some yTrue) := by
  have hs' : ArrayShape k (yPred.map fun r => r.mapIdx f) yTrue :=
    ⟨by simpa using hs.rows, by simpa using hs.pred, hs.labels⟩
  have he : ∀ i, entries (yPred.map fun r => r.mapIdx f) yTrue i =
      (entries yPred yTrue i).map fun a => (f i a.1, a.2) := by
    intro i
    unfold entries
    rw [List.zip_map_left, List.filterMap_map, List.map_filterMap]
    apply List.filterMap_congr
    rintro ⟨p, t⟩ _
    simp only [Function.comp, Prod.map, List.getElem?_mapIdx, id]
    cases p[i]? with
    | none => rfl
    | some s =>
      cases t[i]? with
      | none => rfl
      | some o => cases o <;> rfl
  have h1 : ∀ key : RankKey, ∀ i, key.score (entries (yPred.map fun r => r.mapIdx f) yTrue i) =
      key.score (entries yPred yTrue i) := by
    intro key i
    rw [he]
    exact C111_only_the_order_matters key (f i) (hf i) _
  have h2 : ∀ i, BothLabels (entries (yPred.map fun r => r.mapIdx f) yTrue i) ↔ BothLabels (entries yPred yTrue i) := by
    intro i
    rw [he]
    unfold BothLabels labelCount
    simp only [List.filter_map, List.length_map]
    rfl
  constructor
  · by_cases hne : yTrue = []
    · subst hne
      simp [apMetric]
    · by_cases hn : none ∈ yTrue.flatten
      · rw [((C111_evaluator_ap _).2 yTrue).1 hn, ((C111_evaluator_ap yPred).2 yTrue).1 hn]
      · rw [((C111_evaluator_ap _).2 yTrue).2 k hs' hk hne hn, ((C111_evaluator_ap yPred).2 yTrue).2 k hs hk hne hn]
        have h3 : ∀ i, apOf (entries (yPred.map fun r => r.mapIdx f) yTrue i) = apOf (entries yPred yTrue i) := by
          intro i
          have := h1 .ap i
          rwa [RankKey.score_eq, RankKey.score_eq] at this
        simp only [h3]
  · rw [ogbMetric_eq key hs, ogbMetric_eq key hs']
    simp only [h1, h2]

/-- **C111** A further column without positives: `_ap` counts it as a 0, so that the value shrinks by the factor
`k / (k + 1)`; OGB leaves it out, so that the value stays. -/
theorem C111_columns_without_positives (key : RankKey) (k : Nat) (hk : 0 < k) (yPred : List (List α))
    (yTrue : List (List (Option Bool))) (hs : ArrayShape k yPred yTrue) (hne : yTrue ≠ []) (s : α) :
    (∀ v, apMetric yPred (some yTrue) = .ok v →
      apMetric (yPred.map (· ++ [s])) (some (yTrue.map (· ++ [some false]))) = .ok (v * (k / (k + 1)))) ∧
    ogbMetric key (k + 1) (yPred.map (· ++ [s])) (some (yTrue.map (· ++ [some false]))) =
      ogbMetric key k yPred (some yTrue) := by
  have hs' : ArrayShape (k + 1) (yPred.map (· ++ [s])) (yTrue.map (· ++ [some false])) := by
    refine ⟨by simpa using hs.rows, ?_, ?_⟩
    · simpa using hs.pred
    · simpa using hs.labels
  have he : ∀ i < k, entries (yPred.map (· ++ [s])) (yTrue.map (· ++ [some false])) i = entries yPred yTrue i := by
    intro i hi
    unfold entries
    rw [List.zip_map, List.filterMap_map]
    apply List.filterMap_congr
    rintro ⟨p, t⟩ hpt
    have h1 : i < p.length := by rw [hs.pred p (List.of_mem_zip hpt).1]; exact hi
    have h2 : i < t.length := by rw [hs.labels t (List.of_mem_zip hpt).2]; exact hi
    simp only [Function.comp, Prod.map, List.getElem?_append_left h1, List.getElem?_append_left h2]
  have hlast : labelCount true (entries (yPred.map (· ++ [s])) (yTrue.map (· ++ [some false])) k) = 0 := by
    rw [labelCount_true, List.countP_eq_zero]
    intro a ha
    obtain ⟨⟨p, t⟩, hpt, h⟩ := List.mem_filterMap.mp ha
    have hm := (List.of_mem_zip hpt).2
    obtain ⟨t', ht', rfl⟩ := List.mem_map.mp hm
    have hl : (t' ++ [some false])[k]? = some (some false) := by
      rw [← hs.labels t' ht']
      simp
    simp only [hl] at h
    cases hp : p[k]? with
    | none => rw [hp] at h; cases h
    | some x =>
      rw [hp] at h
      cases h
      simp
  have hk' : (k : ℚ) ≠ 0 := by exact_mod_cast hk.ne'
  have hk1 : (k : ℚ) + 1 ≠ 0 := by exact_mod_cast (Nat.succ_ne_zero k)
  constructor
  · intro v hv
    have hn : none ∉ yTrue.flatten := by
      intro h
      rw [((C111_evaluator_ap yPred).2 yTrue).1 h] at hv
      cases hv
    rw [((C111_evaluator_ap yPred).2 yTrue).2 k hs hk hne hn, ok_inj] at hv
    rw [((C111_evaluator_ap _).2 _).2 (k + 1) hs' (Nat.succ_pos k) (by simpa using hne) ?_, ok_inj, ← hv]
    · rw [List.range_succ, List.map_append, List.sum_append, List.map_singleton, List.sum_singleton]
      have h0 : apOf (entries (yPred.map (· ++ [s])) (yTrue.map (· ++ [some false])) k) = 0 := by
        rw [apOf, hlast]
        simp
      have h1 : ((List.range k).map fun i => apOf (entries (yPred.map (· ++ [s])) (yTrue.map (· ++ [some false])) i)) =
          (List.range k).map fun i => apOf (entries yPred yTrue i) :=
        List.map_congr_left fun i hi => by rw [he i (List.mem_range.mp hi)]
      rw [h0, h1]
      push_cast
      field_simp
      ring
    · intro h
      obtain ⟨r, hr, hmem⟩ := List.mem_flatten.mp h
      obtain ⟨r', hr', rfl⟩ := List.mem_map.mp hr
      rcases List.mem_append.mp hmem with hm | hm
      · exact hn (List.mem_flatten.mpr ⟨r', hr', hm⟩)
      · simp at hm
  · rw [ogbMetric_eq key hs, ogbMetric_eq key hs']
    have h1 : ((List.range (k + 1)).filter fun i =>
        decide (BothLabels (entries (yPred.map (· ++ [s])) (yTrue.map (· ++ [some false])) i))) =
        (List.range k).filter fun i => decide (BothLabels (entries yPred yTrue i)) := by
      rw [List.range_succ, List.filter_append]
      have : ([k].filter fun i =>
          decide (BothLabels (entries (yPred.map (· ++ [s])) (yTrue.map (· ++ [some false])) i))) = [] := by
        rw [List.filter_eq_nil_iff]
        intro i hi
        rw [List.mem_singleton] at hi
        subst hi
        simp [BothLabels, hlast]
      rw [this, List.append_nil]
      apply List.filter_congr
      intro i hi
      rw [he i (List.mem_range.mp hi)]
    rw [h1]
    have h2 : (((List.range k).filter fun i => decide (BothLabels (entries yPred yTrue i))).map fun i =>
        key.score (entries (yPred.map (· ++ [s])) (yTrue.map (· ++ [some false])) i)) =
        ((List.range k).filter fun i => decide (BothLabels (entries yPred yTrue i))).map fun i =>
          key.score (entries yPred yTrue i) :=
      List.map_congr_left fun i hi => by rw [he i (List.mem_range.mp (List.mem_of_mem_filter hi))]
    rw [h2]

/-! ### Examples -/

/-- Four scores. -/
def rankQ : List (ℚ × Bool) := [(1 / 2, true), (2, false), (1 / 2, false), (3, true)]

example : BothLabels rankQ ∧ apBinary rankQ = 3 / 4 ∧ rocAuc rankQ = 5 / 8 ∧ ¬ Separated rankQ := by
  refine ⟨by unfold BothLabels; decide, by decide +kernel, by decide +kernel, ?_⟩
  intro h
  exact absurd (h (1 / 2, true) (by simp [rankQ]) (2, false) (by simp [rankQ]) rfl rfl) (by norm_num)

/-- Separated scores. -/
example : Separated ([(5, true), (1, false), (4, true)] : List (ℚ × Bool)) ∧
    RankKey.ap.score ([(5, true), (1, false), (4, true)] : List (ℚ × Bool)) = 1 := by
  refine ⟨?_, by decide +kernel⟩
  rw [← C111_perfect_scores .ap _ (by unfold BothLabels; decide)]
  decide +kernel

example := C111_constant_scores ([(5, true), (5, false), (5, true)] : List (ℚ × Bool)) 5 (by simp)
  (by unfold BothLabels; decide)

example : rocAuc (rankQ.map fun a => (-a.1, a.2)) = 3 / 8 := by
  rw [C111_reversed_scores (fun x : ℚ => -x) (fun a b h => neg_lt_neg h) rankQ (by unfold BothLabels; decide)]
  decide +kernel

example : rocAuc (rankQ.map fun a => (a.1 * 7 - 1, a.2)) = 5 / 8 := by
  have h : rocAuc (rankQ.map fun a => (a.1 * 7 - 1, a.2)) = rocAuc rankQ :=
    C111_only_the_order_matters .rocauc (fun x : ℚ => x * 7 - 1) (fun a b h => by dsimp only; linarith) rankQ
  rw [h]
  decide +kernel

/-- Two columns, the second with a missing label. -/
def predsQ : List (List ℚ) := [[1, 5], [2, 4], [3, 3]]
def labelsQ : List (List (Option Bool)) := [[some true, some true], [some false, none], [some true, some false]]

theorem shapeQ : ArrayShape 2 predsQ labelsQ := ⟨rfl, by decide, by decide⟩

example : ogbMetric .rocauc 2 predsQ (some labelsQ) = .ok (3 / 4) ∧ apMetric predsQ (some labelsQ) = .error .value ∧
    apMetric predsQ (some [[some true, some true], [some false, some false], [some true, some false]]) =
      .ok (11 / 12) ∧
    ogbMetric .ap 1 [[1], [2]] (some [[some true], [none]]) = .error .runtime := by decide +kernel

example : ogbMetric .ap 2 predsQ (some [[some true, some true]]) = .error .runtime :=
  (C111_wrong_shapes .ap 2 predsQ _).2 fun h => absurd h.rows (by decide)

example := C111_order_of_rows .ap 2 (by decide) predsQ predsQ.reverse labelsQ labelsQ.reverse shapeQ
  ⟨rfl, by decide, by decide⟩ (by decide)

example := C111_columns_without_positives .rocauc 2 (by decide) predsQ labelsQ shapeQ (by decide) 0

example : apMetric [[1, 1], [2, 7]] (some [[some false, some false], [some true, some false]]) = .ok (1 / 2) := by
  decide +kernel

end Verif
