import Verif.Props.Summary
import Mathlib.Tactic.IntervalCases

/-!
# C74: summaries over seeds and ring sizes
-/

namespace Verif

variable {S : Type}

/-- **C74** The runs of exp/run_mol_exp.py: every seed from the first to the last once, with every fold once if folds are
given. -/
theorem C74_runs (csl : Bool) (start stop : Nat) (folds : Option Nat) (runs : List (Nat × Option Nat))
    (h : molRuns csl start stop folds = .ok runs) :
    runs.Nodup ∧ (folds = none → runs.length = stop + 1 - start) ∧
      (∀ k, folds = some k → runs.length = (stop + 1 - start) * k ∧ csl = true) ∧
      ∀ s f, (s, f) ∈ runs ↔ (start ≤ s ∧ s ≤ stop) ∧ match folds with
        | none => f = none
        | some k => ∃ i < k, f = some i := by
  unfold molRuns at h
  by_cases hs : start ≤ stop
  · rw [if_pos hs] at h
    cases folds with
    | none =>
      have := ok_inj.mp h
      subst this
      refine ⟨?_, by simp, by simp, ?_⟩
      · exact (List.nodup_range' ..).map fun a b hab => (Prod.mk.inj hab).1
      · intro s f
        simp only [List.mem_map, List.mem_range'_1, Prod.mk.injEq]
        constructor
        · rintro ⟨a, ha, rfl, rfl⟩
          exact ⟨by omega, rfl⟩
        · rintro ⟨ha, rfl⟩
          exact ⟨s, by omega, rfl, rfl⟩
    | some k =>
      cases csl with
      | false => exact absurd h (by intro h; cases h)
      | true =>
        have := ok_inj.mp h
        subst this
        refine ⟨?_, by simp, ?_, ?_⟩
        · rw [List.nodup_flatMap]
          refine ⟨fun s _ => List.nodup_range.map fun a b hab => Option.some.inj (Prod.mk.inj hab).2, ?_⟩
          refine (List.nodup_range' ..).imp ?_
          intro a b hab x hx hy
          simp only [List.mem_map] at hx hy
          obtain ⟨i, -, rfl⟩ := hx
          obtain ⟨j, -, h⟩ := hy
          exact hab (Prod.mk.inj h).1.symm
        · rintro k' hk
          cases hk
          exact ⟨by simp [List.length_flatMap], rfl⟩
        · intro s f
          simp only [List.mem_flatMap, List.mem_map, List.mem_range'_1, List.mem_range, Prod.mk.injEq]
          constructor
          · rintro ⟨a, ha, i, hi, rfl, rfl⟩
            exact ⟨by omega, i, hi, rfl⟩
          · rintro ⟨ha, i, hi, rfl⟩
            exact ⟨s, by omega, i, hi, rfl, rfl⟩
  · rw [if_neg hs] at h
    cases h

/-- A run of an experiment that trained: the state after the best epoch, and its scores. -/
structure BestOf (t : Trial S) (s : S) (st : S) (valid test : Option ℚ) : Prop where
  trained : ∃ states b, t.Runs t.epochs s states ∧ states[b]? = some st ∧
    ∃ curve, List.Forall₂ (fun s v => t.eval .valid s = .ok v) states curve ∧ bestEpoch t.minimize curve = .ok b
  valid : t.eval .valid st = .ok valid
  test : if t.hasTest = true then t.eval .test st = .ok test else test = none

theorem getAt_ok {A : Type} {l : List A} {i : Nat} {a : A} : getAt l i = .ok a ↔ l[i]? = some a := by
  unfold getAt
  cases l[i]? with
  | none => simp
  | some b => simp

theorem runExp_looks_up (t : Trial S) (s : S) (r : Report) (h : runExp t s = .ok r) :
    getAt r.curves.train r.best = .ok r.bestTrain ∧ getAt r.curves.valid r.best = .ok r.bestValid ∧
      getAt r.curves.test r.best = .ok r.bestTest := by
  unfold runExp at h
  obtain ⟨p, -, h⟩ := bind_eq_ok.mp h
  obtain ⟨_, -, h⟩ := bind_eq_ok.mp h
  obtain ⟨_, -, h⟩ := bind_eq_ok.mp h
  obtain ⟨_, -, h⟩ := bind_eq_ok.mp h
  obtain ⟨_, h1, h⟩ := bind_eq_ok.mp h
  obtain ⟨_, h2, h⟩ := bind_eq_ok.mp h
  obtain ⟨_, h3, h⟩ := bind_eq_ok.mp h
  cases h
  exact ⟨h1, h2, h3⟩

/-- **C74** The summary over seeds: every run contributes the validation and test scores of its own best epoch (chosen on
its validation curve), once and in order; the statistics are those of these scores. -/
theorem C74_seeds (t : Nat → Option Nat → Trial S) (s : Nat → Option Nat → S) (ht : ∀ a f, (t a f).untrained = false)
    (csl : Bool) (start stop : Nat) (folds : Option Nat) (sum : MolSummary)
    (h : molExperiment (fun a f => runExp (t a f) (s a f)) csl start stop folds = .ok sum) :
    ∃ (runs : List (Nat × Option Nat)) (best : List (S × Option ℚ × Option ℚ)),
      molRuns csl start stop folds = .ok runs ∧
      List.Forall₂ (fun r b => BestOf (t r.1 r.2) (s r.1 r.2) b.1 b.2.1 b.2.2) runs best ∧
      sum.bestValid = stat (best.map fun b => b.2.1) ∧ sum.bestTest = stat (best.map fun b => b.2.2) ∧
      sum.bestTestMin = npMin (best.map fun b => b.2.2) ∧ sum.bestTestMax = npMax (best.map fun b => b.2.2) := by
  unfold molExperiment at h
  obtain ⟨runs, hruns, h1⟩ := bind_eq_ok.mp h
  obtain ⟨rs, hrs, h2⟩ := bind_eq_ok.mp h1
  rw [mapE_eq_ok_iff] at hrs
  unfold molSummary at h2
  obtain ⟨tr, htr, h3⟩ := bind_eq_ok.mp h2
  obtain ⟨va, hva, h4⟩ := bind_eq_ok.mp h3
  obtain ⟨te, hte, h5⟩ := bind_eq_ok.mp h4
  cases h5
  rw [mapE_eq_ok_iff] at hva hte
  have key : ∃ best : List (S × Option ℚ × Option ℚ),
      List.Forall₂ (fun r b => BestOf (t r.1 r.2) (s r.1 r.2) b.1 b.2.1 b.2.2) runs best ∧
      va = best.map (fun b => b.2.1) ∧ te = best.map fun b => b.2.2 := by
    clear hruns htr h h1 h2 h3 h4
    induction hrs generalizing va te with
    | nil =>
      cases hva
      cases hte
      exact ⟨[], .nil, rfl, rfl⟩
    | cons hr _ ih =>
      cases hva with
      | cons hv hva =>
        cases hte with
        | cons he hte =>
          obtain ⟨best, h1, h2, h3⟩ := ih _ hva _ hte
          obtain ⟨-, l1, l2⟩ := runExp_looks_up _ _ _ hr
          obtain ⟨states, sb, g1, g2, g3, g4, g5, g6, -⟩ := C53_reported_scores _ _ (ht _ _) _ hr
          rw [l1] at hv
          rw [l2] at he
          have hv := ok_inj.mp hv
          have he := ok_inj.mp he
          refine ⟨(sb, _, _) :: best, .cons ⟨⟨states, _, g1, g2, _, g4, g3⟩, g5, g6⟩ h1, ?_, ?_⟩
          · rw [List.map_cons, ← h2]; exact congrArg (· :: _) hv.symm
          · rw [List.map_cons, ← h3]; exact congrArg (· :: _) he.symm
  obtain ⟨best, hb, rfl, rfl⟩ := key
  exact ⟨runs, best, hruns, hb, rfl, rfl, rfl, rfl⟩

/-- **C74** All ten lines of the summary: each takes one score from the report of every run, for seeds and folds in
order (what the scores of one report are is C53). -/
theorem C74_lines (t : Nat → Option Nat → Trial S) (s : Nat → Option Nat → S) (csl : Bool) (start stop : Nat)
    (folds : Option Nat) (sum : MolSummary)
    (h : molExperiment (fun a f => runExp (t a f) (s a f)) csl start stop folds = .ok sum) :
    ∃ (runs : List (Nat × Option Nat)) (reports : List Report), molRuns csl start stop folds = .ok runs ∧
      List.Forall₂ (fun r rep => runExp (t r.1 r.2) (s r.1 r.2) = .ok rep) runs reports ∧
      sum.bestTrain = stat (reports.map Report.bestTrain) ∧ sum.bestValid = stat (reports.map Report.bestValid) ∧
      sum.bestTest = stat (reports.map Report.bestTest) ∧
      sum.bestTestMin = npMin (reports.map Report.bestTest) ∧ sum.bestTestMax = npMax (reports.map Report.bestTest) ∧
      sum.lastTrain = stat (reports.map Report.lastTrain) ∧ sum.lastValid = stat (reports.map Report.lastValid) ∧
      sum.lastTest = stat (reports.map Report.lastTest) ∧
      sum.lastTestMin = npMin (reports.map Report.lastTest) ∧ sum.lastTestMax = npMax (reports.map Report.lastTest) := by
  unfold molExperiment at h
  obtain ⟨runs, hruns, h1⟩ := bind_eq_ok.mp h
  obtain ⟨rs, hrs, h2⟩ := bind_eq_ok.mp h1
  rw [mapE_eq_ok_iff] at hrs
  unfold molSummary at h2
  obtain ⟨tr, htr, h3⟩ := bind_eq_ok.mp h2
  obtain ⟨va, hva, h4⟩ := bind_eq_ok.mp h3
  obtain ⟨te, hte, h5⟩ := bind_eq_ok.mp h4
  cases h5
  have look : ∀ rep ∈ rs, getAt rep.curves.train rep.best = .ok rep.bestTrain ∧
      getAt rep.curves.valid rep.best = .ok rep.bestValid ∧ getAt rep.curves.test rep.best = .ok rep.bestTest := by
    intro rep hrep
    obtain ⟨i, hi, rfl⟩ := List.getElem_of_mem hrep
    exact runExp_looks_up _ _ _ (hrs.get (by rw [hrs.length_eq]; exact hi) hi)
  have pick : ∀ {f g : Report → _} {out : List (Option ℚ)}, mapE f rs = .ok out →
      (∀ rep ∈ rs, f rep = .ok (g rep)) → out = rs.map g := by
    intro f g out ho hf
    rw [mapE_ok hf] at ho
    exact (ok_inj.mp ho).symm
  obtain rfl := pick htr fun rep hrep => (look rep hrep).1
  obtain rfl := pick hva fun rep hrep => (look rep hrep).2.1
  obtain rfl := pick hte fun rep hrep => (look rep hrep).2.2
  exact ⟨runs, rs, hruns, hrs, rfl, rfl, rfl, rfl, rfl, rfl, rfl, rfl, rfl, rfl⟩

/-- **C74** Mean, unbiased deviation and extremes of two or more scores. -/
theorem C74_statistics (scores : List ℚ) (h : 2 ≤ scores.length) :
    ∃ v lo hi, stat (scores.map some) = ⟨some (average scores), some v⟩ ∧
      ((scores.length : ℚ) - 1) * v = deviation scores ∧ 0 ≤ v ∧
      npMin (scores.map some) = some lo ∧ npMax (scores.map some) = some hi ∧ lo ∈ scores ∧ hi ∈ scores ∧
      (∀ x ∈ scores, lo ≤ x ∧ x ≤ hi) ∧ lo ≤ average scores ∧ average scores ≤ hi := by
  have hne : scores ≠ [] := by rintro rfl; simp at h
  obtain ⟨lo, l1, l2, l3⟩ := min_of hne
  obtain ⟨hi, m1, m2, m3⟩ := max_of hne
  have hpos : (0 : ℚ) < (scores.length : ℚ) - 1 := by
    have : (2 : ℚ) ≤ scores.length := by exact_mod_cast h
    linarith
  refine ⟨deviation scores / ((scores.length : ℚ) - (1 : Nat)), lo, hi, ?_, ?_, ?_, ?_, ?_, l2, m2,
    fun x hx => ⟨l3 x hx, m3 x hx⟩, le_average hne l3, average_le hne m3⟩
  · unfold stat
    rw [npMean_some hne, npVar_some (by omega)]
  · rw [Nat.cast_one, mul_div_cancel₀]
    exact ne_of_gt hpos
  · rw [Nat.cast_one]
    refine div_nonneg ?_ hpos.le
    unfold deviation
    refine List.sum_nonneg ?_
    intro x hx
    obtain ⟨y, -, rfl⟩ := List.mem_map.mp hx
    positivity
  · rw [npMin_some, l1]
  · rw [npMax_some, m1]

/-- **C74** With one run there is no deviation. -/
theorem C74_one_run (score : Option ℚ) : (stat [score]).var = none := npVar_few (by simp)

theorem npMean_nan {l : List (Option ℚ)} (h : none ∈ l) : npMean l = none := by
  unfold npMean numbers
  rw [if_pos h]
  rfl

/-- **C74** A score that is NaN, as all test scores are without test set, makes the statistics NaN. -/
theorem C74_nan (l : List (Option ℚ)) (h : none ∈ l) : stat l = ⟨none, none⟩ ∧ npMin l = none ∧ npMax l = none := by
  refine ⟨?_, ?_, ?_⟩
  · unfold stat
    rw [npMean_nan h]
    unfold npVar numbers
    rw [if_pos h]
    rfl
  · unfold npMin numbers; rw [if_pos h]; rfl
  · unfold npMax numbers; rw [if_pos h]; rfl

/-! ### Ring sizes -/

theorem appendAt_ok {A : Type} {d d' : List (List A)} {f : Nat} {v : A} (h : appendAt d f v = .ok d') (i : Nat) :
    d'.length = d.length ∧ d'[i]? = (d[i]?).map fun l => if i = f then l ++ [v] else l := by
  unfold appendAt modifyAt at h
  cases hf : d[f]? with
  | none => rw [hf] at h; cases h
  | some a =>
    rw [hf] at h
    have := ok_inj.mp h
    subst this
    refine ⟨by simp, ?_⟩
    by_cases hi : i = f
    · subst hi
      rw [List.getElem?_set_self (List.getElem?_eq_some_iff.mp hf).1, hf]
      simp
    · rw [List.getElem?_set_ne (Ne.symm hi)]
      cases d[i]? <;> simp [hi]

theorem ringRuns_collect (run : Nat → Nat → Nat → Nat → Py Report) (sparse : Bool) (l : List (Nat × Nat))
    (acc acc' : List (List (Option ℚ)) × List (List (Option ℚ))) (h : foldE (ringRun run sparse) acc l = .ok acc')
    (f : Nat) :
    acc'.1.length = acc.1.length ∧ acc'.2.length = acc.2.length ∧
    ∃ reports : List Report,
      List.Forall₂ (fun sf r => ∃ size, ringSizes[f]? = some size ∧ run sf.1 f size (ringLayers sparse size) = .ok r)
        (l.filter fun sf => decide (sf.2 = f)) reports ∧
      acc'.1[f]? = (acc.1[f]?).map (· ++ reports.map Report.lastTrain) ∧
      acc'.2[f]? = (acc.2[f]?).map (· ++ reports.map Report.lastValid) := by
  induction l generalizing acc with
  | nil =>
    have := ok_inj.mp h
    subst this
    refine ⟨rfl, rfl, [], .nil, ?_, ?_⟩
    · cases acc.1[f]? <;> simp
    · cases acc.2[f]? <;> simp
  | cons sf l ih =>
    unfold foldE at h
    obtain ⟨mid, h1, h⟩ := bind_eq_ok.mp h
    obtain ⟨i1, i2, reports, i3, i4, i5⟩ := ih mid h
    unfold ringRun at h1
    obtain ⟨size, g1, h1⟩ := bind_eq_ok.mp h1
    obtain ⟨r, g2, h1⟩ := bind_eq_ok.mp h1
    obtain ⟨tr, g3, h1⟩ := bind_eq_ok.mp h1
    obtain ⟨va, g4, h1⟩ := bind_eq_ok.mp h1
    cases h1
    obtain ⟨a1, a2⟩ := appendAt_ok g3 f
    obtain ⟨b1, b2⟩ := appendAt_ok g4 f
    refine ⟨i1.trans a1, i2.trans b1, ?_⟩
    by_cases hf : sf.2 = f
    · refine ⟨r :: reports, ?_, ?_, ?_⟩
      · rw [List.filter_cons_of_pos (by simpa using hf)]
        subst hf
        exact .cons ⟨size, getAt_ok.mp g1, g2⟩ i3
      · rw [i4]
        show (tr[f]?).map _ = _
        rw [a2]; simp only [if_pos hf.symm]
        cases acc.1[f]? <;> simp
      · rw [i5]
        show (va[f]?).map _ = _
        rw [b2]; simp only [if_pos hf.symm]
        cases acc.2[f]? <;> simp
    · refine ⟨reports, ?_, ?_, ?_⟩
      · rw [List.filter_cons_of_neg (by simpa using hf)]
        exact i3
      · rw [i4]
        show (tr[f]?).map _ = _
        rw [a2]; simp only [if_neg (Ne.symm hf)]
        simp
      · rw [i5]
        show (va[f]?).map _ = _
        rw [b2]; simp only [if_neg (Ne.symm hf)]
        simp

/-- **C74** The table of exp/run_ring_exp.py has one line for each of the ring sizes 10, 12, …, 30; the line of a size
summarises exactly the runs with that ring size, one for each seed, with three layers for RingSparseCIN and half the
ring size for the other model. -/
theorem C74_ring_sizes (run : Nat → Nat → Nat → Nat → Py Report) (sparse : Bool) (start stop : Nat)
    (train valid : List RingLine) (h : ringExperiment run sparse start stop = .ok (train, valid)) :
    train.map RingLine.size = [10, 12, 14, 16, 18, 20, 22, 24, 26, 28, 30] ∧
    valid.map RingLine.size = [10, 12, 14, 16, 18, 20, 22, 24, 26, 28, 30] ∧
    ∀ f, f < 11 → ∃ reports : List Report,
      List.Forall₂ (fun seed r => run seed f (10 + 2 * f) (if sparse = true then 3 else 5 + f) = .ok r)
        (List.range' start (stop + 1 - start)) reports ∧
      train[f]? = some ⟨10 + 2 * f, npMean (reports.map Report.lastTrain), npVar 0 (reports.map Report.lastTrain)⟩ ∧
      valid[f]? = some ⟨10 + 2 * f, npMean (reports.map Report.lastValid), npVar 0 (reports.map Report.lastValid)⟩ := by
  unfold ringExperiment at h
  obtain ⟨acc, hacc, h⟩ := bind_eq_ok.mp h
  cases h
  have hsize : ∀ f, f < 11 → ringSizes[f]? = some (10 + 2 * f) := by
    intro f hf
    unfold ringSizes
    rw [List.getElem?_map, List.getElem?_range hf]
    rfl
  have hlen := ringRuns_collect run sparse _ _ _ hacc 0
  have l1 : acc.1.length = 11 := by rw [hlen.1]; rfl
  have l2 : acc.2.length = 11 := by rw [hlen.2.1]; rfl
  have hs : ∀ res : List (List (Option ℚ)), res.length = 11 →
      (ringLines res).map RingLine.size = [10, 12, 14, 16, 18, 20, 22, 24, 26, 28, 30] := by
    intro res hres
    unfold ringLines
    rw [List.map_map]
    show (ringSizes.zip res).map Prod.fst = _
    rw [List.map_fst_zip (by rw [hres]; decide)]
    decide
  refine ⟨hs _ l1, hs _ l2, ?_⟩
  intro f hf
  obtain ⟨-, -, reports, h1, h2, h3⟩ := ringRuns_collect run sparse _ _ _ hacc f
  have hempty : (ringSizes.map fun _ => ([] : List (Option ℚ)))[f]? = some [] := by
    rw [List.getElem?_map, hsize f hf]
    rfl
  rw [hempty, Option.map_some, List.nil_append] at h2 h3
  have hfilter : ∀ seeds : List Nat,
      ((seeds.flatMap fun s => (List.range ringSizes.length).map fun f => (s, f)).filter fun sf => decide (sf.2 = f)) =
        seeds.map fun s => (s, f) := by
    intro seeds
    induction seeds with
    | nil => rfl
    | cons s seeds ih =>
      rw [List.flatMap_cons, List.filter_append, ih, List.map_cons]
      have hone : (((List.range ringSizes.length).map fun f => (s, f)).filter fun sf => decide (sf.2 = f)) = [(s, f)] := by
        rw [List.filter_map]
        have : (List.range ringSizes.length).filter ((fun sf : Nat × Nat => decide (sf.2 = f)) ∘ fun f => (s, f)) = [f] := by
          have hr : ringSizes.length = 11 := by decide
          rw [hr]
          interval_cases f <;> rfl
        rw [this]
        rfl
      rw [hone]
      rfl
  rw [hfilter, List.forall₂_map_left_iff] at h1
  have hl : ringLayers sparse (10 + 2 * f) = if sparse = true then 3 else 5 + f := by
    unfold ringLayers
    cases sparse
    · simp; omega
    · rfl
  refine ⟨reports, ?_, ?_, ?_⟩
  · refine h1.imp ?_
    rintro a r ⟨size, e1, e2⟩
    rw [hsize f hf] at e1
    cases e1
    rw [← hl]
    exact e2
  · show (ringLines acc.1)[f]? = _
    unfold ringLines
    rw [List.getElem?_map, (List.getElem?_zip_eq_some (z := (10 + 2 * f, _))).mpr ⟨hsize f hf, h2⟩]
    rfl
  · show (ringLines acc.2)[f]? = _
    unfold ringLines
    rw [List.getElem?_map, (List.getElem?_zip_eq_some (z := (10 + 2 * f, _))).mpr ⟨hsize f hf, h3⟩]
    rfl

/-- Two seeds of the small trial. -/
example : (molExperiment (fun s _ => runExp (Fixtures.smallTrial 1) (s - 1)) false 0 1 none).map
    (fun s => [s.bestValid.mean, s.bestTest.mean, s.bestTest.var, s.bestTestMin, s.bestTestMax]) =
    .ok [some 3, some 200, some 0, some 200, some 200] := by
  decide +kernel

/-- Two seeds again: all lines, training scores included. -/
example : ∃ sum, molExperiment (fun s _ => runExp (Fixtures.smallTrial 1) (s - 1)) false 0 1 none = .ok sum ∧
    [sum.bestTrain.mean, sum.lastTrain.mean, sum.lastValid.mean, sum.lastTest.mean, sum.lastTestMin, sum.lastTestMax] =
      [some 20, some 40, some 3, some 400, some 400, some 400] := ⟨_, rfl, by decide +kernel⟩

/-- Ring runs whose training score is the number of layers plus the seed. -/
example : (ringExperiment (fun seed _ size layers => .ok ⟨{}, 0, none, none, none, some (layers + seed), some size, none⟩)
    false 0 1).map (fun r => r.1.take 2 ++ r.2.take 1) =
    .ok [⟨10, some (11 / 2), some (1 / 4)⟩, ⟨12, some (13 / 2), some (1 / 4)⟩, ⟨10, some 10, some 0⟩] := by
  decide +kernel

/-! ### The theorems on concrete cases -/

section Cases
example := C74_runs true 0 2 (some 3) _ rfl
example := C74_statistics [1, 5, 3] (by simp)
example := C74_nan [some 1, none] (by simp)
end Cases

end Verif
