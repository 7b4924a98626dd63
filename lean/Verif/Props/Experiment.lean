import Verif.Lemmas.Experiment
import Verif.Props.Models
import Verif.Props.Unbatching
import Mathlib.Algebra.Order.Field.Basic

/-!
# C52, C53, C57, C62: training, evaluation and the reported epoch
-/

namespace Verif

variable {F L S P T : Type}

/-! ### C52 -/

/-- **C52** The isomorphism failure rate of at least two predictions: the number of pairs of places whose predictions
are closer than `eps`, divided by the number of pairs. -/
theorem C52_failure_rate {D : Type} [LT D] [DecidableLT D] (dist : P → P → D) (eps : D) (preds : List P)
    (h : 2 ≤ preds.length) :
    isomorphismMetric dist eps preds =
      .ok (((placePairs (fun a b => decide (dist a b < eps)) preds).card : ℚ) / (preds.length.choose 2 : ℚ)) := by
  unfold isomorphismMetric
  have hpos : 0 < preds.length.choose 2 := Nat.choose_pos h
  rw [pdist_length, if_neg (by omega), pdist_count]

/-- Three predictions, of which the first and the last are close. -/
example := C52_failure_rate (fun a b : ℚ => |a - b|) (1 / 100) [0, 5, 1 / 1000] (by decide)

/-- **C52** The rate is zero exactly if any two predictions are at least `eps` apart. -/
theorem C52_zero_iff_separated {D : Type} [LinearOrder D] (dist : P → P → D) (eps : D) (preds : List P)
    (h : 2 ≤ preds.length) :
    isomorphismMetric dist eps preds = .ok 0 ↔
      ∀ (i j : Nat) (a b : P), i < j → preds[i]? = some a → preds[j]? = some b → eps ≤ dist a b := by
  have hpos : 0 < preds.length.choose 2 := Nat.choose_pos h
  rw [C52_failure_rate dist eps preds h, ok_inj, div_eq_zero_iff]
  have hne : ¬ ((preds.length.choose 2 : ℚ) = 0) := by
    rw [Nat.cast_eq_zero]
    omega
  rw [or_iff_left hne, Nat.cast_eq_zero, Finset.card_eq_zero]
  unfold placePairs
  rw [Finset.filter_eq_empty_iff]
  constructor
  · intro hall i j a b hij ha hb
    have hi := (List.getElem?_eq_some_iff.mp ha).1
    have hj := (List.getElem?_eq_some_iff.mp hb).1
    by_contra hlt
    rw [not_le] at hlt
    exact hall (x := (i, j)) (by simp [hi, hj]) ⟨hij, a, ha, b, hb, by simpa using hlt⟩
  · rintro hall ⟨i, j⟩ - ⟨hij, a, ha, b, hb, hc⟩
    have := hall i j a b hij ha hb
    rw [decide_eq_true_eq] at hc
    exact absurd hc (not_lt.mpr this)

example := C52_zero_iff_separated (fun a b : ℚ => |a - b|) (1 / 100) [0, 5, 7] (by decide)

example : isomorphismMetric (fun a b : ℚ => |a - b|) (1 / 100) [0, 5, 7] = .ok 0 := by decide +kernel

/-- **C52** The rate lies between zero and one. -/
theorem C52_is_a_rate {D : Type} [LT D] [DecidableLT D] (dist : P → P → D) (eps : D) (preds : List P) (r : ℚ)
    (h : isomorphismMetric dist eps preds = .ok r) : 0 ≤ r ∧ r ≤ 1 := by
  unfold isomorphismMetric at h
  split at h
  · cases h
  · next hne =>
    rw [ok_inj] at h
    subst h
    have hpos : (0 : ℚ) < (pdist dist preds).length := by exact_mod_cast Nat.pos_of_ne_zero hne
    refine ⟨div_nonneg (by positivity) hpos.le, (div_le_one hpos).mpr ?_⟩
    exact_mod_cast List.length_filter_le _ _

example := C52_is_a_rate (fun a b : ℚ => |a - b|) (1 / 100) [0, 5, 1 / 1000] (1 / 3) (by decide +kernel)

/-- **C52** For a symmetric distance the rate does not depend on the order of the predictions. -/
theorem C52_order_does_not_matter {D : Type} [LT D] [DecidableLT D] (dist : P → P → D)
    (hsymm : ∀ a b, dist a b = dist b a) (eps : D) (preds preds' : List P) (h : preds.Perm preds') :
    isomorphismMetric dist eps preds = isomorphismMetric dist eps preds' := by
  have hp := pdist_perm hsymm h
  unfold isomorphismMetric
  rw [hp.length_eq, (hp.filter _).length_eq]

example := C52_order_does_not_matter (fun a b : ℚ => |a - b|) (fun a b => abs_sub_comm a b) (1 / 100) [0, 5, 1 / 1000]
  [5, 1 / 1000, 0] (by decide +kernel)

/-- **C52** Two equal predictions are counted as a failure: if some prediction occurs twice, the rate is not zero. -/
theorem C52_equal_predictions_fail {D : Type} [LinearOrder D] [Zero D] (dist : P → P → D) (hself : ∀ a, dist a a = 0)
    (eps : D) (heps : 0 < eps) (preds : List P) (i j : Nat) (a : P) (hij : i < j) (hi : preds[i]? = some a)
    (hj : preds[j]? = some a) : ∃ r, isomorphismMetric dist eps preds = .ok r ∧ 0 < r := by
  have hlen : 2 ≤ preds.length := by
    have := (List.getElem?_eq_some_iff.mp hj).1
    omega
  refine ⟨_, C52_failure_rate dist eps preds hlen, ?_⟩
  have h0 := C52_zero_iff_separated dist eps preds hlen
  obtain ⟨h1, -⟩ := C52_is_a_rate dist eps preds _ (C52_failure_rate dist eps preds hlen)
  refine lt_of_le_of_ne h1 fun e => ?_
  rw [C52_failure_rate dist eps preds hlen, ok_inj] at h0
  have := h0.mp e.symm i j a a hij hi hj
  rw [hself] at this
  exact absurd heps (not_lt.mpr this)

example := C52_equal_predictions_fail (fun a b : ℚ => |a - b|) (fun a => by simp) (1 / 100) (by decide +kernel) [3, 5, 3]
  0 2 3 (by decide) rfl rfl

/-- **C52** With fewer than two predictions there is nothing to divide by. -/
theorem C52_too_few {D : Type} [LT D] [DecidableLT D] (dist : P → P → D) (eps : D) (preds : List P)
    (h : preds.length < 2) : isomorphismMetric dist eps preds = .error .zeroDivision := by
  unfold isomorphismMetric
  rw [pdist_length, Nat.choose_eq_zero_of_lt h, if_pos rfl]

example := C52_too_few (fun a b : ℚ => |a - b|) (1 / 100) [3] (by decide)

/-- Four predictions, of which two are close. -/
example : isomorphismMetric (fun a b : ℚ => |a - b|) (1 / 100) [0, 5, 1 / 1000, 7] = .ok (1 / 6) := by
  decide +kernel

/-! ### C57 -/

theorem trained_snoc {B : Type} {step : S → B → Py (S × ℚ)} {s s' s'' : S} {bs : List B} {ls : List ℚ} {b : B} {l : ℚ}
    (h : Trained step s bs s' ls) (hl : step s' b = .ok (s'', l)) : Trained step s (bs ++ [b]) s'' (ls ++ [l]) := by
  induction h with
  | nil s => exact .cons hl (.nil _)
  | cons h1 _ ih => exact .cons h1 (ih hl)

/-- The batches with at least two samples: `counts` gives the number of cells of each batch. -/
def keptBatches [∀ (b : LoaderBatch F L) n, Decidable (Enough b n)] (loader : List (LoaderBatch F L × (Nat → Nat))) :
    List (LoaderBatch F L) :=
  (loader.filter fun p => decide (Enough p.1 p.2)).map Prod.fst

open Classical in
/-- **C57** A training epoch makes one optimiser step for every batch with at least two cells in every dimension, in
the order of the loader, and none for the others; the curve has the losses of these steps. -/
theorem C57_steps_of_an_epoch (task : Task) (htask : task ≠ .isomorphism ∧ task ≠ .other)
    (step : S → LoaderBatch F L → Py (S × ℚ)) (params : S) (loader : List (LoaderBatch F L × (Nat → Nat)))
    (hcounts : ∀ p ∈ loader, ∀ b, p.1 = .complexes b → CellCounts b p.2) (params' : S) (curve : List ℚ) :
    train task step params (loader.map Prod.fst) = .ok (params', curve) ↔
      Trained step params (keptBatches loader) params' curve := by
  have htrain : train task step params (loader.map Prod.fst) =
      foldE (trainBatch step) (params, []) (loader.map Prod.fst) := by
    obtain ⟨h1, h2⟩ := htask
    cases task <;> first | rfl | exact absurd rfl h1 | exact absurd rfl h2
  rw [htrain]
  have hsamples : ∀ p ∈ loader, ∃ m, numSamples p.1 = .ok m ∧ (2 ≤ m ↔ Enough p.1 p.2) := by
    rintro ⟨b, n⟩ hp
    cases b with
    | complexes c =>
      obtain ⟨m, h1, h2⟩ := numSamples_complex (hcounts _ hp c rfl)
      exact ⟨m, h1, h2 2⟩
    | graphs rows => exact ⟨rows, rfl, Iff.rfl⟩
  have key : ∀ (loader : List (LoaderBatch F L × (Nat → Nat))) (params params' : S) (acc curve : List ℚ),
      (∀ p ∈ loader, ∃ m, numSamples p.1 = .ok m ∧ (2 ≤ m ↔ Enough p.1 p.2)) →
      (foldE (trainBatch step) (params, acc) (loader.map Prod.fst) = .ok (params', curve) ↔
        ∃ ls, Trained step params (keptBatches loader) params' ls ∧ curve = acc ++ ls) := by
    intro loader
    induction loader with
    | nil =>
      intro params params' acc curve _
      show Except.ok (params, acc) = Except.ok (params', curve) ↔ _
      rw [ok_inj, Prod.mk.injEq]
      constructor
      · rintro ⟨rfl, rfl⟩
        exact ⟨[], .nil _, by simp⟩
      · rintro ⟨ls, h, rfl⟩
        cases h
        simp
    | cons p loader ih =>
      intro params params' acc curve hs
      obtain ⟨m, h1, h2⟩ := hs p (by simp)
      have ih := fun a b c d => ih a b c d fun q hq => hs q (by simp [hq])
      rw [List.map_cons]
      show (trainBatch step (params, acc) p.1 >>= fun a => foldE (trainBatch step) a (loader.map Prod.fst)) = _ ↔ _
      have hbody : trainBatch step (params, acc) p.1 = if m ≤ 1 then .ok (params, acc) else
          (step params p.1 >>= fun r => .ok (r.1, acc ++ [r.2])) := by
        unfold trainBatch
        rw [h1]
        rfl
      rw [hbody]
      by_cases hm : m ≤ 1
      · rw [if_pos hm, ok_bind, ih]
        have : ¬ Enough p.1 p.2 := fun h => by have := h2.mpr h; omega
        simp [keptBatches, this]
      · rw [if_neg hm]
        have hen : Enough p.1 p.2 := h2.mp (by omega)
        have hk : keptBatches (p :: loader) = p.1 :: keptBatches loader := by simp [keptBatches, hen]
        rw [hk]
        constructor
        · intro h
          obtain ⟨r, hr, h⟩ := bind_eq_ok.mp h
          obtain ⟨q, hq, hr⟩ := bind_eq_ok.mp hr
          rw [ok_inj] at hr
          subst hr
          obtain ⟨ls, h3, rfl⟩ := (ih _ _ _ _).mp h
          exact ⟨q.2 :: ls, .cons hq h3, by simp⟩
        · rintro ⟨ls, h, rfl⟩
          cases h with
          | cons h3 h4 =>
            rw [h3]
            simp only [ok_bind]
            exact (ih _ _ _ _).mpr ⟨_, h4, by simp⟩
  rw [key loader params params' [] curve hsamples]
  simp

open Classical in
/-- **C57** The curve has one entry per step. -/
theorem C57_length_of_the_curve (task : Task) (htask : task ≠ .isomorphism ∧ task ≠ .other)
    (step : S → LoaderBatch F L → Py (S × ℚ)) (params : S) (loader : List (LoaderBatch F L × (Nat → Nat)))
    (hcounts : ∀ p ∈ loader, ∀ b, p.1 = .complexes b → CellCounts b p.2) (params' : S) (curve : List ℚ)
    (h : train task step params (loader.map Prod.fst) = .ok (params', curve)) :
    curve.length = (loader.filter fun p => decide (Enough p.1 p.2)).length := by
  have h := (C57_steps_of_an_epoch task htask step params loader hcounts params' curve).mp h
  have key : ∀ {s s' : S} {bs : List (LoaderBatch F L)} {ls : List ℚ}, Trained step s bs s' ls →
      ls.length = bs.length := by
    intro s s' bs ls h
    induction h with
    | nil => rfl
    | cons _ _ ih => simp [ih]
  rw [key h, keptBatches, List.length_map]

/-- **C57** Other tasks cannot be trained on. -/
theorem C57_other_tasks (step : S → LoaderBatch F L → Py (S × ℚ)) (params : S) (loader : List (LoaderBatch F L)) :
    train .isomorphism step params loader = .error .notImplemented ∧
    train .other step params loader = .error .notImplemented := ⟨rfl, rfl⟩

/-- An epoch over three batches of graphs with four, one and five nodes: the second is skipped. The state counts the
steps. -/
example : train .regression (fun (s : Nat) (_ : LoaderBatch Nat Nat) => .ok (s + 1, (1 : ℚ) / (s + 1))) 7
    [.graphs 4, .graphs 1, .graphs 5] = .ok (9, [1 / 8, 1 / 9]) := by
  decide +kernel

section
variable {R : Type} [AddCommMonoid R]

/-- The cells of a batch of complexes are those of all its complexes. -/
theorem cellCounts_batch {cs : List (Complex R L)} {mB : Nat} {B : Complex R L} (h : fromComplexList cs mB = .ok B)
    (hr : ∀ c ∈ cs, c.Ready) : CellCounts B fun d => (cs.map (Complex.cellsIn d)).sum := by
  have hruns := batch_runs h hr
  have hle := (batch_dim_le h).1
  have hcell : ∀ d, d ≤ B.dimension → ∃ c x, B.cochains[d]? = some c ∧ c.x = some x ∧
      c.numCells = .ok (some x.length) ∧ x.length = (cs.map (Complex.cellsIn d)).sum := by
    intro d hd
    have hlt : d < B.cochains.length := by rw [hruns.len]; omega
    obtain ⟨x, h1, h2⟩ := hruns.feat d _ (List.getElem?_eq_getElem hlt)
    refine ⟨_, x, List.getElem?_eq_getElem hlt, h1, h2, ?_⟩
    have hX := batch_X h hr (show d ≤ mB by omega)
    have hx : B.view.X d = x := by
      show (B.attr d Cochain.x).getD [] = x
      rw [attr_of (List.getElem?_eq_getElem hlt), h1]
      rfl
    rw [← hx, hX, List.length_flatMap]
    congr 1
    apply List.map_congr_left
    intro c hc
    exact ready_X_length (hr c hc) d
  constructor
  · obtain ⟨c, x, h1, h2, -, h4⟩ := hcell 0 (by omega)
    exact ⟨c, x, h1, h2, h4⟩
  · intro d _ hd
    obtain ⟨c, x, h1, -, h3, h4⟩ := hcell d hd
    exact ⟨c, h1, by rw [h3, h4]⟩

/-- **C57** A batch of complexes is skipped exactly if, in some dimension of the batch, its complexes together have
fewer than two cells. -/
theorem C57_skipped_batches (cs : List (Complex R L)) (hne : cs ≠ []) (hr : ∀ c ∈ cs, c.Ready) (mB : Nat) :
    ∃ B n, fromComplexList cs mB = .ok B ∧ numSamples (.complexes B) = .ok n ∧
      (n ≤ 1 ↔ ∃ d, d ≤ mB ∧ (∃ c ∈ cs, d ≤ c.dimension) ∧ (cs.map (Complex.cellsIn d)).sum ≤ 1) := by
  obtain ⟨B, hB⟩ := batch_exists hne hr mB
  obtain ⟨n, h1, h2⟩ := numSamples_complex (cellCounts_batch hB hr)
  refine ⟨B, n, hB, h1, ?_⟩
  have h2 := not_congr (h2 2)
  have hdim : ∀ d, d ≤ B.dimension ↔ d ≤ mB ∧ ∃ c ∈ cs, d ≤ c.dimension := by
    obtain ⟨-, hle, hge, ⟨c, hc, he⟩, -⟩ := C06_batch_labels_dimension_size cs mB B hB
    intro d
    constructor
    · intro hd
      exact ⟨by omega, c, hc, by omega⟩
    · rintro ⟨h3, c', hc', h4⟩
      have := hge c' hc'
      omega
  rw [show n ≤ 1 ↔ ¬ 2 ≤ n by omega, h2]
  push Not
  constructor
  · rintro ⟨d, hd, hlt⟩
    exact ⟨d, ((hdim d).mp hd).1, ((hdim d).mp hd).2, by omega⟩
  · rintro ⟨d, hd, hc, hle⟩
    exact ⟨d, (hdim d).mpr ⟨hd, hc⟩, by omega⟩

/-- The house has a single triangle: alone it is skipped, with dimensions up to 1 it is not. -/
example : ((fromComplexList [Fixtures.house, Fixtures.seg] 2).toOption.map fun B => numSamples (.complexes B)) =
      some (.ok 1) ∧
    ((fromComplexList [Fixtures.house, Fixtures.seg] 1).toOption.map fun B => numSamples (.complexes B)) =
      some (.ok 7) := by
  decide

end

/-! ### C53 -/

/-- What the curves record after some epochs. -/
structure Recorded (t : Trial S) (states : List S) (c : Curves) : Prop where
  valid : List.Forall₂ (fun s v => t.eval .valid s = .ok v) states c.valid
  test : List.Forall₂ (fun s v => if t.hasTest = true then t.eval .test s = .ok v else v = none) states c.test
  trainLength : c.train.length = states.length
  train : ∀ (i : Nat), i < states.length → ∃ (j : Nat) (s : S) (v : Option ℚ), j ≤ i ∧ (j = 0 ∨ t.period ∣ j + 1) ∧
    (∀ k, j < k → k ≤ i → ¬ t.period ∣ k + 1) ∧ states[j]? = some s ∧ c.train[i]? = some v ∧ t.eval .train s = .ok v
  last : states ≠ [] → c.train.getLast? = some c.trainPerf

theorem forall₂_snoc {A B : Type} {r : A → B → Prop} {l : List A} {m : List B} {a : A} {b : B}
    (h : List.Forall₂ r l m) (hab : r a b) : List.Forall₂ r (l ++ [a]) (m ++ [b]) := by
  induction h with
  | nil => exact .cons hab .nil
  | cons h1 _ ih => exact .cons h1 ih

theorem dividesPeriod_eq_ok {period epoch : Nat} {b : Bool} (h : dividesPeriod period epoch = .ok b) :
    b = true ↔ period ∣ epoch := by
  unfold dividesPeriod at h
  split at h
  · cases h
  · rw [ok_inj] at h
    subst h
    rw [beq_iff_eq, Nat.dvd_iff_mod_eq_zero]

theorem recorded_step {t : Trial S} {states : List S} {c : Curves} (h : Recorded t states c) {s s' : S}
    {c' : Curves} {stop : Bool} {n : Nat} (hn : n = states.length)
    (hrun : epochBody t s c (n + 1) = .ok ((s', c'), stop)) :
    ∃ s1 ls v, t.train s = .ok (s1, ls) ∧ t.eval .valid s1 = .ok v ∧ s' = t.next s1 v ∧
      (stop = true ↔ t.stops s1 v) ∧ Recorded t (states ++ [s1]) c' ∧ c'.loss = c.loss ++ ls := by
  subst hn
  unfold epochBody at hrun
  obtain ⟨⟨s1, ls⟩, h1, hrun⟩ := bind_eq_ok.mp hrun
  obtain ⟨b, h2, hrun⟩ := bind_eq_ok.mp hrun
  obtain ⟨tp, h3, hrun⟩ := bind_eq_ok.mp hrun
  obtain ⟨v, h4, hrun⟩ := bind_eq_ok.mp hrun
  obtain ⟨te, h5, hrun⟩ := bind_eq_ok.mp hrun
  rw [pure_eq_ok, ok_inj, Prod.mk.injEq, Prod.mk.injEq] at hrun
  obtain ⟨⟨rfl, rfl⟩, rfl⟩ := hrun
  dsimp only at h3 h4 h5
  have hb : b = true ↔ states.length = 0 ∨ t.period ∣ states.length + 1 := by
    unfold evaluatesTrain at h2
    split at h2
    · next he =>
      rw [ok_inj] at h2
      subst h2
      have : states.length = 0 := by omega
      simp [this]
    · next he =>
      rw [dividesPeriod_eq_ok h2]
      have : ¬ states.length = 0 := by omega
      simp only [this, false_or]
  refine ⟨s1, ls, v, h1, h4, ?_, ?_, ?_, rfl⟩
  · unfold schedule Trial.next
    cases t.scheduler <;> rfl
  · unfold schedule Trial.stops
    cases t.scheduler <;> simp
  · refine ⟨forall₂_snoc h.valid h4, ?_, by simp [h.trainLength], ?_, ?_⟩
    · refine forall₂_snoc h.test ?_
      unfold testPerf at h5
      split at h5
      · next ht => rw [if_pos ht]; exact h5
      · next ht => rw [if_neg ht]; rw [ok_inj] at h5; exact h5.symm
    · intro i hi
      rw [List.length_append, List.length_singleton] at hi
      by_cases hlt : i < states.length
      · obtain ⟨j, s0, v0, a1, a2, a3, a4, a5, a6⟩ := h.train i hlt
        refine ⟨j, s0, v0, a1, a2, a3, ?_, ?_, a6⟩
        · rw [List.getElem?_append_left (List.getElem?_eq_some_iff.mp a4).1]
          exact a4
        · show (c.train ++ [tp])[i]? = _
          rw [List.getElem?_append_left (List.getElem?_eq_some_iff.mp a5).1]
          exact a5
      · obtain rfl : i = states.length := by omega
        have hlast : (c.train ++ [tp])[states.length]? = some tp := by
          rw [← h.trainLength, List.getElem?_concat_length]
        cases b with
        | true =>
          refine ⟨states.length, s1, tp, le_refl _, hb.mp rfl, fun k a b => by omega, by simp, hlast, h3⟩
        | false =>
          have hno := mt hb.mpr (by simp)
          push Not at hno
          have hne : states ≠ [] := fun e => hno.1 (by rw [e]; rfl)
          have hold := h.last hne
          have heq : tp = c.trainPerf := (ok_inj.mp h3).symm
          obtain ⟨j, s0, v0, a1, a2, a3, a4, a5, a6⟩ := h.train (states.length - 1) (by omega)
          have hv0 : v0 = c.trainPerf := by
            rw [List.getLast?_eq_getElem?, h.trainLength, a5] at hold
            exact Option.some.inj hold
          refine ⟨j, s0, tp, by omega, a2, ?_, ?_, hlast, ?_⟩
          · intro k hk1 hk2
            by_cases hk : k ≤ states.length - 1
            · exact a3 k hk1 hk
            · obtain rfl : k = states.length := by omega
              exact hno.2
          · rw [List.getElem?_append_left (List.getElem?_eq_some_iff.mp a4).1]
            exact a4
          · rw [heq, ← hv0]
            exact a6
    · intro _
      show (c.train ++ [tp]).getLast? = some tp
      rw [List.getLast?_concat]

/-- **C53** The curves of a training: there are states, one per epoch, each trained from the one before, such that
the validation curve has their validation scores and the test curve their test scores (NaN without a test set); the
training curve has in epoch `i` the score of the last state at which it was evaluated: the first epoch and the
multiples of the period. Fewer epochs than asked for are run only if the learning rate has become too small. -/
theorem C53_curves (t : Trial S) (s s' : S) (c : Curves)
    (hrun : epochLoop t (List.range' 1 t.epochs) s {} = .ok (s', c)) :
    ∃ states, t.Runs t.epochs s states ∧ Recorded t states c := by
  have key : ∀ (n : Nat) (states : List S) (s s' : S) (c c' : Curves), Recorded t states c →
      epochLoop t (List.range' (states.length + 1) n) s c = .ok (s', c') →
      ∃ more, t.Runs n s more ∧ Recorded t (states ++ more) c' := by
    intro n
    induction n with
    | zero =>
      intro states s s' c c' h hrun
      rw [List.range'_zero, epochLoop, ok_inj, Prod.mk.injEq] at hrun
      obtain ⟨rfl, rfl⟩ := hrun
      exact ⟨[], .done _, by rw [List.append_nil]; exact h⟩
    | succ n ih =>
      intro states s s' c c' h hrun
      rw [List.range'_succ, epochLoop] at hrun
      obtain ⟨⟨⟨s1, c1⟩, stop⟩, hb, hrun⟩ := bind_eq_ok.mp hrun
      obtain ⟨s0, ls, v, h1, h2, h3, h4, h5, -⟩ := recorded_step h rfl hb
      cases stop with
      | true =>
        rw [if_pos rfl, pure_eq_ok, ok_inj, Prod.mk.injEq] at hrun
        obtain ⟨rfl, rfl⟩ := hrun
        exact ⟨[s0], .stop h1 h2 (h4.mp rfl), h5⟩
      | false =>
        rw [if_neg (by simp)] at hrun
        obtain ⟨u, -, hrun⟩ := bind_eq_ok.mp hrun
        have hlen : states.length + 1 + 1 = (states ++ [s0]).length + 1 := by simp
        rw [hlen] at hrun
        obtain ⟨more, m1, m2⟩ := ih (states ++ [s0]) _ s' _ c' h5 hrun
        refine ⟨s0 :: more, .go h1 h2 (fun hs => by simpa using h4.mpr hs) (h3 ▸ m1), ?_⟩
        rw [List.append_assoc] at m2
        exact m2
  obtain ⟨states, h1, h2⟩ := key t.epochs [] s s' {} c ⟨.nil, .nil, rfl, fun i hi => by simp at hi, by simp⟩ hrun
  exact ⟨states, h1, h2⟩

/-- **C53** The best epoch of a curve without NaN: the best validation score, and the first epoch that has it. -/
theorem C53_best_epoch (minimize : Bool) (valid : List ℚ) (hne : valid ≠ []) :
    ∃ b v, bestEpoch minimize (valid.map some) = .ok b ∧ valid[b]? = some v ∧
      (∀ w ∈ valid, if minimize = true then v ≤ w else w ≤ v) ∧
      ∀ (i : Nat) (w : ℚ), i < b → valid[i]? = some w → w ≠ v := by
  have hget : ∀ (i : Nat) (w : ℚ), valid[i]? = some w → (valid.map some)[i]? = some (some w) := by
    intro i w h
    rw [List.getElem?_map, h]
    rfl
  have hs : ∀ v ∈ valid.map some, v.isSome := by
    intro v hv
    obtain ⟨w, -, rfl⟩ := List.mem_map.mp hv
    rfl
  unfold bestEpoch
  cases minimize with
  | true =>
    obtain ⟨b, v, h1, h2, h3, h4⟩ := argBest_spec comparison_min (valid.map some) (by simpa using hne) hs
    refine ⟨b, v, h1, by simpa using h2, fun w hw => ?_, fun i w hi hw e => ?_⟩
    · obtain ⟨i, hi⟩ := List.mem_iff_getElem?.mp hw
      simpa using h3 i w (hget i w hi)
    · have := h4 i w hi (hget i w hw)
      rw [e] at this
      simp at this
  | false =>
    obtain ⟨b, v, h1, h2, h3, h4⟩ := argBest_spec comparison_max (valid.map some) (by simpa using hne) hs
    refine ⟨b, v, h1, by simpa using h2, fun w hw => ?_, fun i w hi hw e => ?_⟩
    · obtain ⟨i, hi⟩ := List.mem_iff_getElem?.mp hw
      simpa using h3 i w (hget i w hi)
    · have := h4 i w hi (hget i w hw)
      rw [e] at this
      simp at this

example := C53_best_epoch false [1, 3, 2, 3] (by simp)

example : bestEpoch false [some 1, some 3, some 2, some 3] = .ok 1 ∧ bestEpoch true [some 1, some 3, some 1] = .ok 0 := by
  decide +kernel

/-- **C53** As soon as a validation score is NaN, the first such epoch is reported as the best. -/
theorem C53_first_nan_is_best (minimize : Bool) (front : List ℚ) (rest : List (Option ℚ)) :
    bestEpoch minimize (front.map some ++ none :: rest) = .ok front.length := by
  unfold bestEpoch
  cases minimize <;> exact argBest_nan front rest

example : bestEpoch false [some 1, some 3, none, some 9] = .ok 2 := C53_first_nan_is_best false [1, 3] [some 9]

/-- **C53** The report of a training: the validation and test scores printed for the best epoch are those of the state
of that epoch, and the training score that of the last state up to then at which it was evaluated. -/
theorem C53_reported_scores (t : Trial S) (s : S) (ht : t.untrained = false) (r : Report) (hrun : runExp t s = .ok r) :
    ∃ states sb, t.Runs t.epochs s states ∧ states[r.best]? = some sb ∧
      bestEpoch t.minimize r.curves.valid = .ok r.best ∧
      List.Forall₂ (fun s v => t.eval .valid s = .ok v) states r.curves.valid ∧
      t.eval .valid sb = .ok r.bestValid ∧
      (if t.hasTest = true then t.eval .test sb = .ok r.bestTest else r.bestTest = none) ∧
      ∃ j sj, j ≤ r.best ∧ (j = 0 ∨ t.period ∣ j + 1) ∧ (∀ k, j < k → k ≤ r.best → ¬ t.period ∣ k + 1) ∧
        states[j]? = some sj ∧ t.eval .train sj = .ok r.bestTrain := by
  unfold runExp at hrun
  obtain ⟨⟨s', c, b⟩, h1, hrun⟩ := bind_eq_ok.mp hrun
  obtain ⟨lt, -, hrun⟩ := bind_eq_ok.mp hrun
  obtain ⟨lv, -, hrun⟩ := bind_eq_ok.mp hrun
  obtain ⟨le, -, hrun⟩ := bind_eq_ok.mp hrun
  obtain ⟨bt, g1, hrun⟩ := bind_eq_ok.mp hrun
  obtain ⟨bv, g2, hrun⟩ := bind_eq_ok.mp hrun
  obtain ⟨be, g3, hrun⟩ := bind_eq_ok.mp hrun
  rw [pure_eq_ok, ok_inj] at hrun
  subst hrun
  dsimp only at g1 g2 g3 ⊢
  unfold trainingPhase at h1
  rw [ht, if_neg (by simp)] at h1
  obtain ⟨⟨s1, c1⟩, h2, h1⟩ := bind_eq_ok.mp h1
  obtain ⟨b1, h3, h1⟩ := bind_eq_ok.mp h1
  rw [pure_eq_ok, ok_inj] at h1
  simp only [Prod.mk.injEq] at h1
  obtain ⟨rfl, rfl, rfl⟩ := h1
  obtain ⟨states, hr, hrec⟩ := C53_curves t s s1 c1 h2
  rw [getAt_eq_ok] at g1 g2 g3
  have hlen := hrec.valid.length_eq
  have hb := (List.getElem?_eq_some_iff.mp g2).1
  have hsb : b1 < states.length := by omega
  obtain ⟨j, sj, v, a1, a2, a3, a4, a5, a6⟩ := hrec.train b1 hsb
  rw [g1] at a5
  obtain rfl := Option.some.inj a5
  have hat : ∀ {A B : Type} {r : A → B → Prop} {l : List A} {m : List B}, List.Forall₂ r l m →
      ∀ (i : Nat) (a : A) (b : B), l[i]? = some a → m[i]? = some b → r a b := by
    intro A B r l m h
    induction h with
    | nil => intro i a b ha; simp at ha
    | cons h1 _ ih =>
      intro i a b ha hb
      cases i with
      | zero =>
        obtain rfl := Option.some.inj ha
        obtain rfl := Option.some.inj hb
        exact h1
      | succ i => exact ih i a b ha hb
  exact ⟨states, states[b1], hr, List.getElem?_eq_getElem hsb, h3, hrec.valid,
    hat hrec.valid b1 _ _ (List.getElem?_eq_getElem hsb) g2, hat hrec.test b1 _ _ (List.getElem?_eq_getElem hsb) g3,
    j, sj, a1, a2, a3, a4, a6⟩

/-- **C53** If the training score is evaluated in every epoch, the training score printed for the best epoch is that
of its state too. -/
theorem C53_training_score_of_the_best_epoch (t : Trial S) (s : S) (ht : t.untrained = false) (hp : t.period = 1)
    (r : Report) (hrun : runExp t s = .ok r) :
    ∃ states sb, t.Runs t.epochs s states ∧ states[r.best]? = some sb ∧ t.eval .train sb = .ok r.bestTrain := by
  obtain ⟨states, sb, h1, h2, -, -, -, -, j, sj, h3, -, h4, h5, h6⟩ := C53_reported_scores t s ht r hrun
  have hj : j = r.best := by
    by_contra hne
    refine h4 r.best (by omega) (le_refl _) ?_
    rw [hp]
    exact one_dvd _
  subst hj
  rw [h2] at h5
  obtain rfl := Option.some.inj h5
  exact ⟨states, sb, h1, h2, h6⟩

/-- **C53** The final scores are those of the state at the end: after the scheduler of the last epoch that was run,
or the first state without training. For the strongly regular graphs the training and validation scores are NaN, and
without a test set the test score is. -/
theorem C53_final_scores (t : Trial S) (s : S) (r : Report) (hrun : runExp t s = .ok r) :
    ∃ states fin, (if t.untrained then states = [] else t.Runs t.epochs s states) ∧
      (states = [] ∧ fin = s ∨ ∃ last v, states.getLast? = some last ∧ t.eval .valid last = .ok v ∧
        fin = t.next last v) ∧
      (if t.strongly then r.lastTrain = none ∧ r.lastValid = none
        else t.eval .train fin = .ok r.lastTrain ∧ t.eval .valid fin = .ok r.lastValid) ∧
      (if t.hasTest then t.eval .test fin = .ok r.lastTest else r.lastTest = none) := by
  have key : ∀ (n : Nat) (states : List S) (s s' : S) (c c' : Curves), Recorded t states c →
      epochLoop t (List.range' (states.length + 1) n) s c = .ok (s', c') →
      ∃ more, t.Runs n s more ∧ (more = [] ∧ s' = s ∨ ∃ last v, more.getLast? = some last ∧
        t.eval .valid last = .ok v ∧ s' = t.next last v) := by
    intro n
    induction n with
    | zero =>
      intro states s s' c c' h hrun
      rw [List.range'_zero, epochLoop, ok_inj, Prod.mk.injEq] at hrun
      obtain ⟨rfl, rfl⟩ := hrun
      exact ⟨[], .done _, .inl ⟨rfl, rfl⟩⟩
    | succ n ih =>
      intro states s s' c c' h hrun
      rw [List.range'_succ, epochLoop] at hrun
      obtain ⟨⟨⟨s1, c1⟩, stop⟩, hb, hrun⟩ := bind_eq_ok.mp hrun
      obtain ⟨s0, ls, v, h1, h2, h3, h4, h5, -⟩ := recorded_step h rfl hb
      cases stop with
      | true =>
        rw [if_pos rfl, pure_eq_ok, ok_inj, Prod.mk.injEq] at hrun
        obtain ⟨rfl, rfl⟩ := hrun
        exact ⟨[s0], .stop h1 h2 (h4.mp rfl), .inr ⟨s0, v, rfl, h2, h3⟩⟩
      | false =>
        rw [if_neg (by simp)] at hrun
        obtain ⟨u, -, hrun⟩ := bind_eq_ok.mp hrun
        have hlen : states.length + 1 + 1 = (states ++ [s0]).length + 1 := by simp
        rw [hlen] at hrun
        obtain ⟨more, m1, m2⟩ := ih (states ++ [s0]) _ s' _ c' h5 hrun
        refine ⟨s0 :: more, .go h1 h2 (fun hs => by simpa using h4.mpr hs) (h3 ▸ m1), .inr ?_⟩
        rcases m2 with ⟨rfl, e⟩ | ⟨last, w, e1, e2, e3⟩
        · exact ⟨s0, v, rfl, h2, e.trans h3⟩
        · exact ⟨last, w, by rw [List.getLast?_cons, e1]; rfl, e2, e3⟩
  unfold runExp at hrun
  obtain ⟨⟨s', c, b⟩, h1, hrun⟩ := bind_eq_ok.mp hrun
  obtain ⟨lt, g1, hrun⟩ := bind_eq_ok.mp hrun
  obtain ⟨lv, g2, hrun⟩ := bind_eq_ok.mp hrun
  obtain ⟨le, g3, hrun⟩ := bind_eq_ok.mp hrun
  obtain ⟨bt, -, hrun⟩ := bind_eq_ok.mp hrun
  obtain ⟨bv, -, hrun⟩ := bind_eq_ok.mp hrun
  obtain ⟨be, -, hrun⟩ := bind_eq_ok.mp hrun
  rw [pure_eq_ok, ok_inj] at hrun
  subst hrun
  dsimp only at g1 g2 g3 ⊢
  have hs : ∃ states, (if t.untrained then states = [] else t.Runs t.epochs s states) ∧
      (states = [] ∧ s' = s ∨ ∃ last v, states.getLast? = some last ∧ t.eval .valid last = .ok v ∧
        s' = t.next last v) := by
    unfold trainingPhase at h1
    cases ht : t.untrained with
    | true =>
      rw [ht, if_pos rfl, ok_inj] at h1
      simp only [Prod.mk.injEq] at h1
      exact ⟨[], rfl, .inl ⟨rfl, h1.1.symm⟩⟩
    | false =>
      rw [ht, if_neg (by simp)] at h1
      obtain ⟨⟨s1, c1⟩, h2, h1⟩ := bind_eq_ok.mp h1
      obtain ⟨b1, h3, h1⟩ := bind_eq_ok.mp h1
      rw [pure_eq_ok, ok_inj] at h1
      simp only [Prod.mk.injEq] at h1
      obtain ⟨rfl, rfl, rfl⟩ := h1
      obtain ⟨states, a1, a2⟩ := key t.epochs [] s s1 {} c1
        ⟨.nil, .nil, rfl, fun i hi => by simp at hi, by simp⟩ h2
      exact ⟨states, by simpa using a1, a2⟩
  obtain ⟨states, a1, a2⟩ := hs
  refine ⟨states, s', a1, a2, ?_, ?_⟩
  · unfold finalPerf at g1 g2
    cases hg : t.strongly with
    | true =>
      rw [hg, if_pos rfl, ok_inj] at g1 g2
      exact ⟨g1.symm, g2.symm⟩
    | false =>
      rw [hg, if_neg (by simp)] at g1 g2
      exact ⟨g1, g2⟩
  · unfold testPerf at g3
    cases hg : t.hasTest with
    | true => rw [hg, if_pos rfl] at g3; exact g3
    | false =>
      rw [hg, if_neg (by simp), ok_inj] at g3
      exact g3.symm

/-- **C53** No training is reported for zero epochs: `ValueError`. -/
theorem C53_no_epochs (t : Trial S) (s : S) (ht : t.untrained = false) (h0 : t.epochs = 0) :
    runExp t s = .error .value := by
  unfold runExp trainingPhase
  rw [ht, h0]
  cases hm : t.minimize <;> simp only [bestEpoch, hm] <;> rfl

namespace Fixtures

/-- States are numbers of epochs; the validation scores are 1, 3, 2, 3. -/
def smallTrial (period : Nat) : Trial Nat where
  epochs := 4
  period := period
  minimize := false
  untrained := false
  earlyStop := false
  strongly := false
  hasTest := true
  scheduler := .none
  train s := .ok (s + 1, [1 / (s + 1)])
  eval split s := match split with
    | .train => .ok (some (10 * s))
    | .valid => .ok ([none, some 1, some 3, some 2, some 3][s]?.getD none)
    | .test => .ok (some (100 * s))
  decay s _ := s
  lrLow _ := false

end Fixtures

/-- The second epoch is the first with the best score; its scores are reported. -/
example : (runExp (Fixtures.smallTrial 1) 0).map (fun r => (r.best, r.bestTrain, r.bestValid, r.bestTest)) =
    .ok (1, some 20, some 3, some 200) := by
  decide +kernel

/-- The final scores are those of the last epoch. -/
example : (runExp (Fixtures.smallTrial 1) 0).map (fun r => (r.lastTrain, r.lastValid, r.lastTest)) =
    .ok (some 40, some 3, some 400) ∧
    (runExp { Fixtures.smallTrial 1 with strongly := true } 0).map (fun r => (r.lastTrain, r.lastValid, r.lastTest)) =
    .ok (none, none, some 400) := by
  decide +kernel

/-- **C53** With a larger period the training score reported for the best epoch may be the one of an earlier epoch:
here of epoch 1 instead of epoch 2. -/
theorem C53_training_score_may_be_stale :
    ∃ r, runExp (Fixtures.smallTrial 3) 0 = .ok r ∧ r.best = 1 ∧ r.bestTrain = some 10 ∧
      (Fixtures.smallTrial 3).Runs 4 0 [1, 2, 3, 4] ∧ (Fixtures.smallTrial 3).eval .train 2 = .ok (some 20) := by
  have hno : ∀ (n : Nat) (v : Option ℚ), ¬ (Fixtures.smallTrial 3).stops n v := by
    rintro n v ⟨h, -⟩
    cases h
  have hgo : ∀ (n s : Nat) (rest : List Nat), (Fixtures.smallTrial 3).Runs n (s + 1) rest →
      (Fixtures.smallTrial 3).Runs (n + 1) s ((s + 1) :: rest) := by
    intro n s rest h
    exact .go rfl rfl (hno _ _) h
  refine ⟨_, rfl, by decide +kernel, by decide +kernel, ?_, by decide +kernel⟩
  exact hgo _ _ _ (hgo _ _ _ (hgo _ _ _ (hgo _ _ _ (.done _))))

/-! ### The theorems on concrete cases -/

section Cases
open Fixtures

/-- Four epochs from the start: the states and the curves. -/
example : (epochLoop (smallTrial 3) (List.range' 1 4) 0 {}).map (fun r => (r.1, r.2.train, r.2.valid)) =
    .ok (4, [some 10, some 10, some 30, some 30], [some 1, some 3, some 2, some 3]) := by
  decide +kernel

example : ∃ r, runExp (smallTrial 1) 0 = .ok r ∧ (smallTrial 1).untrained = false ∧ (smallTrial 1).period = 1 ∧
    r.bestTrain = some 20 := by
  have h : (runExp (smallTrial 1) 0).map (fun r => r.bestTrain) = .ok (some 20) := by decide +kernel
  cases hr : runExp (smallTrial 1) 0 with
  | error e => rw [hr] at h; cases h
  | ok r =>
    rw [hr] at h
    exact ⟨r, rfl, rfl, rfl, ok_inj.1 h⟩

example := C53_no_epochs { smallTrial 1 with epochs := 0 } 0 rfl rfl

end Cases

end Verif
