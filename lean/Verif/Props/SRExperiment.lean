import Mathlib.Tactic.FieldSimp
import Verif.Props.SR
import Verif.Props.Summary

/-!
# C79: the experiment on strongly regular graphs
-/

namespace Verif

/-- **C79** The arguments of a run. There is one unless both a dimension and a ring size are passed; a dimension that is
passed is used, with rings it is 2, and otherwise that of the family; all dimensions up to it are read out. -/
theorem C79_run (maxDim rings : Option Nat) (family seed : Nat) (hf : family < 9) :
    ((∃ r, srRun maxDim rings family seed = .ok r) ↔ maxDim = none ∨ rings = none) ∧
    (maxDim ≠ none → rings ≠ none → srRun maxDim rings family seed = .error .assertion) ∧
    ∀ r, srRun maxDim rings family seed = .ok r → r.family = family ∧ r.seed = seed ∧
      (∀ k, maxDim = some k → r.maxDim = k) ∧ (rings.isSome → r.maxDim = 2) ∧
      (maxDim = none → rings = none → srMaxDims[family]? = some r.maxDim) ∧
      (∀ d, d ∈ r.readoutDims ↔ d ≤ r.maxDim) ∧ r.readoutDims.Pairwise (· < ·) := by
  have hd : ∀ d, (⟨family, seed, d, List.range (d + 1)⟩ : SRRun).readoutDims.Pairwise (· < ·) :=
    fun d => List.pairwise_lt_range
  have hm : ∀ d e, e ∈ (⟨family, seed, d, List.range (d + 1)⟩ : SRRun).readoutDims ↔ e ≤ d := by
    intro d e
    rw [List.mem_range, Nat.lt_succ_iff]
  unfold srRun srRunDim
  cases maxDim with
  | none =>
    cases rings with
    | none =>
      have hf' : family < srMaxDims.length := hf
      obtain ⟨d, e⟩ : ∃ d, srMaxDims[family]? = some d := ⟨_, List.getElem?_eq_getElem hf'⟩
      have e' := getAt_eq_ok.mpr e
      simp only [e', ok_bind]
      refine ⟨⟨fun _ => by simp, fun _ => ⟨_, rfl⟩⟩, fun h => absurd rfl h, fun r hr => ?_⟩
      cases hr
      exact ⟨rfl, rfl, (by simp), (by simp), (fun _ _ => e), hm d, hd d⟩
    | some size =>
      refine ⟨⟨fun _ => .inl rfl, fun _ => ⟨_, rfl⟩⟩, fun h => absurd rfl h, fun r hr => ?_⟩
      cases hr
      exact ⟨rfl, rfl, (by simp), (fun _ => rfl), (by simp), hm 2, hd 2⟩
  | some k =>
    cases rings with
    | none =>
      refine ⟨⟨fun _ => .inr rfl, fun _ => ⟨_, rfl⟩⟩, fun _ h => absurd rfl h, fun r hr => ?_⟩
      cases hr
      exact ⟨rfl, rfl, (by simp), (by simp), (by simp), hm k, hd k⟩
    | some size =>
      refine ⟨⟨fun ⟨r, hr⟩ => absurd hr (by simp), fun h => absurd h (by simp)⟩, fun _ _ => rfl, fun r hr => absurd hr (by simp)⟩

/-- **C79** What a run asks of its dataset is never refused: with rings of more than 3 nodes, or with a dimension that
is positive, the request meets all conditions of C78. -/
theorem C79_runs_fit_the_datasets (maxDim rings : Option Nat) (family seed : Nat) (hf : family < 9) (r : SRRun)
    (h : srRun maxDim rings family seed = .ok r) (hk : ∀ k, maxDim = some k → 1 ≤ k) (hs : ∀ s, rings = some s → 3 < s)
    (q : Request) (hq : q.maxDim = r.maxDim) (hg : q.g.Ok) (hlib : q.lib.Ok) (horder : ∀ l, (q.order l).Perm l) :
    q.Ok rings := by
  obtain ⟨-, -, h1, h2, h3, -⟩ := (C79_run maxDim rings family seed hf).2.2 r h
  refine ⟨hg, hlib, horder, ?_, fun s e => ⟨hs s e, by rw [hq, h2 (by simp [e])]⟩⟩
  rw [hq]
  cases hm : maxDim with
  | some k =>
    rw [h1 k hm]
    exact hk k hm
  | none =>
    cases hr : rings with
    | some s => rw [h2 (by simp [hr])]; omega
    | none =>
      have := List.mem_of_getElem? (h3 hm hr)
      have key : ∀ d ∈ srMaxDims, 1 ≤ d := by decide
      exact key _ this

/-- **C79** The summary of a family: mean, smallest and largest failure rate of its runs, with the mean in between. What is
printed as standard error is, squared, the variance over the square of the number of runs. -/
theorem C79_summary (start stop : Nat) (rates : List ℚ) (hne : rates ≠ []) (hlen : rates.length + start = stop + 1) :
    ∃ s lo hi, srSummary start stop (rates.map some) = .ok s ∧ s.mean = some (average rates) ∧ s.min = some lo ∧
      s.max = some hi ∧ lo ∈ rates ∧ hi ∈ rates ∧ (∀ x ∈ rates, lo ≤ x ∧ x ≤ hi) ∧ lo ≤ average rates ∧ average rates ≤ hi ∧
      s.stdErrSq = some (deviation rates / rates.length / (rates.length : ℚ) ^ 2) := by
  obtain ⟨lo, l1, l2, l3⟩ := min_of hne
  obtain ⟨hi, m1, m2, m3⟩ := max_of hne
  have hpos := List.length_pos_iff.mpr hne
  refine ⟨⟨some (average rates), some (deviation rates / rates.length / (rates.length : ℚ) ^ 2), some lo, some hi⟩, lo, hi, ?_,
    rfl, rfl, rfl, l2, m2, fun x hx => ⟨l3 x hx, m3 x hx⟩, le_average hne l3, average_le hne m3, rfl⟩
  have hn : (rates.map some) ≠ [] := by simpa using hne
  unfold srSummary
  rw [show pyAssert (decide (((rates.map some).length : Int) = (stop : Int) + 1 - start)) = .ok () by
    rw [pyAssert_eq_ok, decide_eq_true_eq, List.length_map]; omega, ok_bind, if_neg hn, npMean_some hne,
    npVar_some (by omega), npMin_some, npMax_some, l1, m1]
  simp [pow_two, pure, Except.pure]

/-- **C79** So the printed error is too small: the standard error of the mean (the square root of the sample variance over
the number of runs) is, squared, larger by a factor of more than the number of runs, unless all rates are equal. -/
theorem C79_printed_error_too_small (start stop : Nat) (rates : List ℚ) (htwo : 2 ≤ rates.length)
    (hlen : rates.length + start = stop + 1) (hdiff : ∃ x ∈ rates, ∃ y ∈ rates, x ≠ y) (s : SRSummary)
    (h : srSummary start stop (rates.map some) = .ok s) :
    ∃ e, s.stdErrSq = some e ∧ 0 < e ∧
      rates.length * e < deviation rates / ((rates.length : ℚ) - 1) / rates.length := by
  have hne : rates ≠ [] := by rintro rfl; simp at htwo
  obtain ⟨s', lo, hi, e1, -, -, -, -, -, -, -, -, e2⟩ := C79_summary start stop rates hne hlen
  rw [h] at e1
  cases e1
  have hn : (2 : ℚ) ≤ rates.length := by exact_mod_cast htwo
  have hdev : 0 < deviation rates := by
    obtain ⟨x, hx, y, hy, hxy⟩ := hdiff
    have hz : ∃ z ∈ rates, z ≠ average rates := by
      by_cases hxa : x = average rates
      · exact ⟨y, hy, fun e => hxy (hxa.trans e.symm)⟩
      · exact ⟨x, hx, hxa⟩
    obtain ⟨z, hz, hza⟩ := hz
    unfold deviation
    have h1 : (z - average rates) ^ 2 ≤ (rates.map fun x => (x - average rates) ^ 2).sum :=
      List.single_le_sum (fun v hv => by
        obtain ⟨u, -, rfl⟩ := List.mem_map.mp hv
        positivity) _ (List.mem_map.mpr ⟨z, hz, rfl⟩)
    have h2 : 0 < (z - average rates) ^ 2 := by
      have : z - average rates ≠ 0 := sub_ne_zero.mpr hza
      positivity
    linarith
  refine ⟨_, e2, by positivity, ?_⟩
  have h0 : (0 : ℚ) < rates.length := by linarith
  have h1 : (0 : ℚ) < (rates.length : ℚ) - 1 := by linarith
  rw [show (rates.length : ℚ) * (deviation rates / rates.length / (rates.length : ℚ) ^ 2) =
    deviation rates / ((rates.length : ℚ) * rates.length) by field_simp, div_div]
  exact div_lt_div_of_pos_left hdev (by positivity) (by nlinarith)

/-- **C79** The script: for each of the nine families, in order, the summary of the last test scores of the runs with the
seeds from the first to the last, each run with the arguments of C79_run. -/
theorem C79_experiment (main : SRRun → Py Report) (maxDim rings : Option Nat) (start stop : Nat) (sums : List SRSummary) :
    srExperiment main maxDim rings start stop = .ok sums ↔ sums.length = 9 ∧
      ∀ f s, sums[f]? = some s → ∃ reports : List Report, srSummary start stop (reports.map Report.lastTest) = .ok s ∧
        reports.length = stop + 1 - start ∧
        ∀ i rep, reports[i]? = some rep → ∃ r, srRun maxDim rings f (start + i) = .ok r ∧ main r = .ok rep := by
  have inner : ∀ f perfs, mapE (fun s => (do
      let r ← srRun maxDim rings f s
      let rep ← main r
      return rep.lastTest : Py (Option ℚ))) (List.range' start (stop + 1 - start)) = .ok perfs ↔
      ∃ reports : List Report, perfs = reports.map Report.lastTest ∧ reports.length = stop + 1 - start ∧
        ∀ i rep, reports[i]? = some rep → ∃ r, srRun maxDim rings f (start + i) = .ok r ∧ main r = .ok rep := by
    intro f perfs
    rw [mapE_eq_ok_iff, List.forall₂_iff_get]
    simp only [List.length_range', List.get_eq_getElem, List.getElem_range', Nat.one_mul]
    constructor
    · rintro ⟨h1, h2⟩
      have key : ∀ i : Fin perfs.length, ∃ rep : Report, perfs[i.1] = rep.lastTest ∧
          ∃ r, srRun maxDim rings f (start + i.1) = .ok r ∧ main r = .ok rep := by
        intro i
        have := h2 i.1 (by have := i.2; omega) i.2
        obtain ⟨r, e1, e2⟩ := bind_eq_ok.mp this
        obtain ⟨rep, e3, e4⟩ := bind_eq_ok.mp e2
        exact ⟨rep, (ok_inj.mp e4).symm, r, e1, e3⟩
      choose rep hrep using key
      refine ⟨List.ofFn rep, ?_, by rw [List.length_ofFn, h1], ?_⟩
      · refine List.ext_getElem (by simp) fun i h h' => ?_
        simp only [List.getElem_map, List.getElem_ofFn]
        exact (hrep ⟨i, h⟩).1
      · intro i rp hi
        obtain ⟨hl, e⟩ := List.getElem?_eq_some_iff.mp hi
        rw [List.getElem_ofFn] at e
        subst e
        exact (hrep ⟨i, by simpa using hl⟩).2
    · rintro ⟨reports, rfl, h1, h2⟩
      refine ⟨by rw [List.length_map, h1], fun i hi hi' => ?_⟩
      rw [List.length_map] at hi'
      obtain ⟨r, e1, e2⟩ := h2 i _ (List.getElem?_eq_getElem hi')
      rw [e1, ok_bind, e2, ok_bind, List.getElem_map]
      rfl
  unfold srExperiment
  constructor
  · intro h
    obtain ⟨results, h1, h2⟩ := bind_eq_ok.mp h
    have f1 := mapE_eq_ok_iff.mp h1
    have f2 := mapE_eq_ok_iff.mp h2
    have l1 := f1.length_eq
    have l2 := f2.length_eq
    rw [List.length_range] at l1
    refine ⟨by rw [← l2, ← l1]; rfl, fun f s hs => ?_⟩
    obtain ⟨hf, e⟩ := List.getElem?_eq_some_iff.mp hs
    have g1 := (List.forall₂_iff_get.mp f1).2 f (by rw [List.length_range]; omega) (by omega)
    have g2 := (List.forall₂_iff_get.mp f2).2 f (by omega) hf
    simp only [List.get_eq_getElem, List.getElem_range] at g1 g2
    obtain ⟨reports, e1, e2, e3⟩ := (inner f _).mp g1
    refine ⟨reports, ?_, e2, e3⟩
    rw [← e1, g2, e]
  · rintro ⟨h1, h2⟩
    have key : ∀ f : Fin 9, ∃ perfs, mapE (fun s => (do
        let r ← srRun maxDim rings f s
        let rep ← main r
        return rep.lastTest : Py (Option ℚ))) (List.range' start (stop + 1 - start)) = .ok perfs ∧
        srSummary start stop perfs = .ok (sums[f.1]'(by have := f.2; omega)) := by
      intro f
      obtain ⟨reports, e1, e2, e3⟩ := h2 f.1 _ (List.getElem?_eq_getElem (by have := f.2; omega))
      exact ⟨_, (inner f.1 _).mpr ⟨reports, rfl, e2, e3⟩, e1⟩
    choose perfs hp using key
    refine bind_eq_ok.mpr ⟨List.ofFn perfs, mapE_eq_ok_iff.mpr (List.forall₂_iff_get.mpr ⟨?_, fun i hi hi' => ?_⟩),
      mapE_eq_ok_iff.mpr (List.forall₂_iff_get.mpr ⟨?_, fun i hi hi' => ?_⟩)⟩
    · simp [srMaxDims]
    · simp only [List.get_eq_getElem, List.getElem_range, List.getElem_ofFn]
      exact (hp ⟨i, by simpa [srMaxDims] using hi⟩).1
    · simp [h1]
    · simp only [List.get_eq_getElem, List.getElem_ofFn]
      exact (hp _).2

/-- **C79** Whatever bounds the failure rates of all runs of a family bounds its mean: if every run on the family counts
the same isomorphic pairs as failures (C78), the mean, the smallest and the largest rate are at least their share. -/
theorem C79_bounds (main : SRRun → Py Report) (maxDim rings : Option Nat) (start stop : Nat) (hseeds : start ≤ stop)
    (sums : List SRSummary) (h : srExperiment main maxDim rings start stop = .ok sums) (f : Nat) (hf : f < 9) (lo hi : ℚ)
    (hb : ∀ r rep, r.family = f → start ≤ r.seed → r.seed ≤ stop → main r = .ok rep →
      ∃ v, rep.lastTest = some v ∧ lo ≤ v ∧ v ≤ hi) :
    ∃ s m a b, sums[f]? = some s ∧ s.mean = some m ∧ s.min = some a ∧ s.max = some b ∧ lo ≤ a ∧ a ≤ m ∧ m ≤ b ∧ b ≤ hi := by
  obtain ⟨h1, h2⟩ := (C79_experiment main maxDim rings start stop sums).mp h
  obtain ⟨s, hs⟩ : ∃ s, sums[f]? = some s := ⟨_, List.getElem?_eq_getElem (h1 ▸ hf)⟩
  obtain ⟨reports, e1, e2, e3⟩ := h2 f s hs
  have hv : ∀ rep ∈ reports, ∃ v, rep.lastTest = some v ∧ lo ≤ v ∧ v ≤ hi := by
    intro rep hrep
    obtain ⟨i, hi', rfl⟩ := List.mem_iff_getElem.mp hrep
    obtain ⟨r, e4, e5⟩ := e3 i _ (List.getElem?_eq_getElem hi')
    obtain ⟨k1, k2, -⟩ := (C79_run maxDim rings f _ hf).2.2 r e4
    exact hb r _ k1 (by omega) (by omega) e5
  obtain ⟨rates, hr⟩ := forall₂_of_forall hv
  have hm : reports.map Report.lastTest = rates.map some := by
    rw [← List.forall₂_eq_eq_eq, List.forall₂_map_left_iff, List.forall₂_map_right_iff]
    exact hr.imp fun _ _ h => h.1
  have hl := hr.length_eq
  have hne : rates ≠ [] := by rintro rfl; simp at hl; rw [hl] at e2; simp at e2; omega
  obtain ⟨s', a, b, k1, k2, k3, k4, k5, k6, -, k7, k8, -⟩ := C79_summary start stop rates hne (by omega)
  rw [hm, k1] at e1
  cases e1
  have hin : ∀ x ∈ rates, lo ≤ x ∧ x ≤ hi := by
    intro x hx
    obtain ⟨rep, -, h5⟩ := forall₂_mem hr.flip hx
    exact h5.2
  exact ⟨s, _, a, b, hs, k2, k3, k4, (hin a k5).1, k7, k8, (hin b k6).2⟩

/-- **C79** Arguments that the script does not accept: a dimension together with a ring size, and seeds of which the last
comes before the first. -/
theorem C79_refused (main : SRRun → Py Report) (maxDim rings : Option Nat) (start stop : Nat) :
    (start ≤ stop → maxDim ≠ none → rings ≠ none → srExperiment main maxDim rings start stop = .error .assertion) ∧
    (start = stop + 1 → srExperiment main maxDim rings start stop = .error .value) ∧
    (stop + 1 < start → srExperiment main maxDim rings start stop = .error .assertion) := by
  refine ⟨fun h h1 h2 => ?_, fun h => ?_, fun h => ?_⟩
  · unfold srExperiment
    obtain ⟨n, hn⟩ : ∃ n, stop + 1 - start = n + 1 := ⟨stop - start, by omega⟩
    rw [hn, show List.range srMaxDims.length = 0 :: [1, 2, 3, 4, 5, 6, 7, 8] from rfl, mapE_cons]
    rw [List.range'_succ, mapE_cons, (C79_run maxDim rings 0 start (by omega)).2.1 h1 h2]
    rfl
  · subst h
    unfold srExperiment
    rw [Nat.sub_self]
    simp [mapE, srMaxDims, srSummary, pyAssert, List.range, List.range.loop, Bind.bind, Except.bind, pure, Except.pure]
  · unfold srExperiment
    rw [show stop + 1 - start = 0 by omega]
    have : ¬ ((0 : Int) = (stop : Int) + 1 - start) := by omega
    simp [mapE, srMaxDims, srSummary, pyAssert, List.range, List.range.loop, Bind.bind, Except.bind, pure, Except.pure, this]

/-! ### Examples -/

/-- Rates that depend on family and seed. -/
def srMain (r : SRRun) : Py Report :=
  .ok ⟨{}, 0, none, none, none, none, none, some ((r.family + r.seed : ℚ) / 100)⟩

/-- The summary of the third family with the seeds 1 to 3. -/
example : (srExperiment srMain none (some 6) 1 3).map (fun sums => sums[2]?) =
    .ok (some ⟨some (4 / 100), some (2 / 30000 / 9), some (3 / 100), some (5 / 100)⟩) := by
  decide +kernel

/-- All rates of this family lie between 0 and 1. -/
example : ∀ r rep, r.family = 2 → 1 ≤ r.seed → r.seed ≤ 3 → srMain r = .ok rep → ∃ v, rep.lastTest = some v ∧ 0 ≤ v ∧ v ≤ 1 := by
  intro r rep hf _ hs h
  cases h
  have : (r.seed : ℚ) ≤ 3 := by exact_mod_cast hs
  refine ⟨_, rfl, by positivity, ?_⟩
  rw [hf, div_le_one (by norm_num)]
  push_cast
  linarith

/-- With a dimension and a ring size nothing is run. -/
example : (srExperiment srMain (some 2) (some 6) 0 9).map (fun _ => ()) = .error .assertion := by
  rw [(C79_refused srMain (some 2) (some 6) 0 9).1 (by omega) (by simp) (by simp)]
  rfl

end Verif
