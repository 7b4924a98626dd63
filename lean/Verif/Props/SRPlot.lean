import Verif.Lemmas.SRPlot
import Verif.Props.SRExperiment

/-!
# C99: the file with the results on strongly regular graphs, and its plot
-/

namespace Verif

variable {V : Type}

/-- **C99** What the plot reads is what the experiment wrote: the mean and the error of the k-th family under the k-th
name, whatever the numbers, the commit and the arguments. -/
theorem C99_round_trip {shown : V → Text} {number : Text → Py V} (hp : Prints shown number) (sha items : Text)
    (hs : '\n' ∉ sha) (hi : '\n' ∉ items) (sums : List (SRNumbers V)) (h : sums.length = 9) :
    ∃ res, readResults number (srFile shown sha items sums) = .ok res ∧ res.map Prod.fst = plotNames ∧
      res.map Prod.snd = sums.map fun s => (s.mean, s.stdErr) := by
  have h9 : srFamilies.length = 9 := rfl
  have hp9 : plotNames.length = 9 := rfl
  have hf : ∀ f ∈ srFamilies, '\n' ∉ f.toList := by decide
  have e : (srFamilies.zip sums).map (fun p => (p.2.mean, p.2.stdErr)) = sums.map fun s => (s.mean, s.stdErr) := by
    have : (fun p : String × SRNumbers V => (p.2.mean, p.2.stdErr)) = (fun s => (s.mean, s.stdErr)) ∘ Prod.snd := rfl
    rw [this, ← List.map_map, List.map_snd_zip (by omega)]
  have := (readResults_text hp hs hi (srFamilies.zip sums) fun p hq => hf _ (List.of_mem_zip hq).1).1
    (by rw [List.length_zip]; omega)
  rw [e] at this
  exact ⟨_, this, List.map_fst_zip (by simp; omega), List.map_snd_zip (by simp; omega)⟩

/-- **C99** A file with another number of families is never plotted: with fewer the check at the end raises, with more
the list of names is too short. -/
theorem C99_other_families {shown : V → Text} {number : Text → Py V} (hp : Prints shown number) (sha items : Text)
    (hs : '\n' ∉ sha) (hi : '\n' ∉ items) (blocks : List (String × SRNumbers V))
    (hb : ∀ p ∈ blocks, '\n' ∉ p.1.toList) :
    (blocks.length < 9 → readResults number (srText shown sha items blocks) = .error .assertion) ∧
    (9 < blocks.length → readResults number (srText shown sha items blocks) = .error .index) :=
  (readResults_text hp hs hi blocks hb).2

/-- **C99** But the name of a family in the file is not looked at: nine families in another order are plotted under the
names of the plot. -/
theorem C99_names_in_the_file_are_not_read {shown : V → Text} {number : Text → Py V} (hp : Prints shown number)
    (sha items : Text) (hs : '\n' ∉ sha) (hi : '\n' ∉ items) (blocks blocks' : List (String × SRNumbers V))
    (hb : ∀ p ∈ blocks, '\n' ∉ p.1.toList) (hb' : ∀ p ∈ blocks', '\n' ∉ p.1.toList)
    (h : blocks.map Prod.snd = blocks'.map Prod.snd) :
    readResults number (srText shown sha items blocks) = readResults number (srText shown sha items blocks') := by
  have hl : blocks.length = blocks'.length := by simpa using congrArg List.length h
  have hm : (blocks.map fun p => (p.2.mean, p.2.stdErr)) = blocks'.map fun p => (p.2.mean, p.2.stdErr) := by
    have := congrArg (List.map fun s : SRNumbers V => (s.mean, s.stdErr)) h
    rwa [List.map_map, List.map_map] at this
  obtain ⟨a1, a2, a3⟩ := readResults_text hp hs hi blocks hb
  obtain ⟨b1, b2, b3⟩ := readResults_text hp hs hi blocks' hb'
  rcases lt_trichotomy blocks.length 9 with c | c | c
  · rw [a2 c, b2 (hl ▸ c)]
  · rw [a1 c, b1 (hl ▸ c), hm]
  · rw [a3 c, b3 (hl ▸ c)]

/-- **C99** The names of the script and of the plot are of the same families in the same order: they have the same
digits. No two families share them. -/
theorem C99_names : srFamilies.length = 9 ∧ srMaxDims.length = 9 ∧
    srFamilies.map familyDigits = plotNames.map familyDigits ∧ (srFamilies.map familyDigits).Nodup := by
  refine ⟨rfl, rfl, ?_, ?_⟩ <;> decide +kernel

/-- **C99** From the runs to the plot: the bar over the k-th label ends at the mean of the k-th family, the family with
the digits of the label, and has its error. `value` and `root` are the numbers that are computed for the entries of the
summary. -/
theorem C99_plot_shows_the_experiment [Ring V] {shown : V → Text} {number : Text → Py V} (hp : Prints shown number)
    (sha items : Text) (hs : '\n' ∉ sha) (hi : '\n' ∉ items) (value root : Option ℚ → V)
    (main : SRRun → Py Report) (maxDim rings : Option Nat) (start stop : Nat) (sums : List SRSummary)
    (h : srExperiment main maxDim rings start stop = .ok sums) :
    ∃ bars, (readResults number (srFile shown sha items (sums.map fun s =>
        ⟨value s.mean, root s.stdErrSq, value s.min, value s.max⟩)) >>= plotBars) = .ok bars ∧
      bars.length = plotTicks.length ∧ plotTicks.map familyDigits = srFamilies.map familyDigits ∧
      ∀ k, k < 9 → ∃ (reports : List Report) (s : SRSummary), bars[k]? = some (value s.mean, root s.stdErrSq) ∧
        srSummary start stop (reports.map Report.lastTest) = .ok s ∧ reports.length = stop + 1 - start ∧
        ∀ i rep, reports[i]? = some rep → ∃ r, srRun maxDim rings k (start + i) = .ok r ∧ main r = .ok rep := by
  obtain ⟨h1, h2⟩ := (C79_experiment main maxDim rings start stop sums).mp h
  obtain ⟨res, e1, e2, e3⟩ := C99_round_trip hp sha items hs hi (sums.map fun s =>
        (⟨value s.mean, root s.stdErrSq, value s.min, value s.max⟩ : SRNumbers V)) (by simpa using h1)
  have er : res = plotNames.zip (sums.map fun s => (value s.mean, root s.stdErrSq)) := by
    rw [← e2]
    rw [List.map_map] at e3
    have : (sums.map fun s => (value s.mean, root s.stdErrSq)) = res.map Prod.snd := e3.symm
    rw [this, zip_fst_snd]
  refine ⟨sums.map fun s => (value s.mean, root s.stdErrSq), ?_, ?_, C99_names.2.2.1.symm, ?_⟩
  · rw [e1, ok_bind, er, plotBars_zip (by simpa using h1)]
  · rw [List.length_map, h1]
    rfl
  · intro k hk
    obtain ⟨s, hs⟩ : ∃ s, sums[k]? = some s := ⟨_, List.getElem?_eq_getElem (h1 ▸ hk)⟩
    obtain ⟨reports, f1, f2, f3⟩ := h2 k s hs
    exact ⟨reports, s, by rw [List.getElem?_map, hs]; rfl, f1, f2, f3⟩


/-! ### Examples -/

/-- Numbers written with a sign and strokes. -/
def strokes (z : Int) : Text := (if z < 0 then '-' else '+') :: List.replicate z.natAbs '1'

/-- And read. -/
def readStrokes : Text → Py Int
  | '-' :: t => .ok (-t.length)
  | '+' :: t => .ok t.length
  | _ => .error .value

theorem strokes_prints : Prints strokes readStrokes where
  back v := by
    unfold strokes
    by_cases h : v < 0
    · rw [if_pos h]
      show Except.ok (-((List.replicate v.natAbs '1').length : Int)) = _
      rw [List.length_replicate]
      congr 1
      omega
    · rw [if_neg h]
      show Except.ok ((List.replicate v.natAbs '1').length : Int) = _
      rw [List.length_replicate]
      congr 1
      omega
  ne v := by simp [strokes]
  word v c hc := by
    unfold strokes at hc
    rcases List.mem_cons.mp hc with h | h
    · by_cases hv : v < 0
      · rw [if_pos hv] at h; subst h; decide
      · rw [if_neg hv] at h; subst h; decide
    · rw [(List.mem_replicate.mp h).2]; decide

/-- Nine families with means 0, 1, ..., 8. -/
def sumsZ : List (SRNumbers Int) := (List.range 9).map fun k => ⟨k, 2 * k, 0, -k⟩

/-- What is read from the file: -/
example : readResults readStrokes (srFile strokes "63e7947".toList "seed=0".toList sumsZ) =
    .ok [("SR(16,6,2,2)", 0, 0), ("SR(25,12,5,6)", 1, 2), ("SR(26,10,3,4)", 2, 4), ("SR(28,12,6,4)", 3, 6),
      ("SR(29,14,6,7)", 4, 8), ("SR(35,16,6,8)", 5, 10), ("SR(35,18,9,9)", 6, 12), ("SR(36,14,4,6)", 7, 14),
      ("SR(40,12,2,4)", 8, 16)] := by
  decide +kernel

/-- The lines of the file for the second family. -/
example : (fileLines (srFile strokes "63e7947".toList "seed=0".toList sumsZ))[10]? =
    some "Mean failure rate:     +1\n".toList := by decide +kernel

/-- A file of a run on one family only. -/
example : readResults readStrokes (srText strokes "63e7947".toList [] [("sr16622", ⟨1, 0, 1, 1⟩)]) =
    .error .assertion :=
  (C99_other_families strokes_prints _ _ (by decide) (by decide) _ (by decide)).1 (by decide)

/-- A file with a family too many. -/
example : readResults readStrokes (srText strokes "63e7947".toList [] ((List.range 10).map fun k =>
    ("sr", ⟨(k : Int), 0, 0, 0⟩))) = .error .index :=
  (C99_other_families strokes_prints _ _ (by decide) (by decide) _ (by decide)).2 (by decide)

/-- The plot of the experiment above. -/
example : ∃ bars, (srExperiment srMain none (some 6) 1 3 >>= fun sums => readResults readStrokes
    (srFile strokes "63e7947".toList "seed=0".toList (sums.map fun s =>
      ⟨((s.mean.getD 0) * 100).num, 0, 0, 0⟩)) >>= plotBars) = .ok bars ∧ bars[2]? = some (4, 0) := by
  have h : ∃ sums, srExperiment srMain none (some 6) 1 3 = .ok sums ∧
      (sums[2]?).map (fun s => s.mean) = some (some (4 / 100)) := by
    cases h : srExperiment srMain none (some 6) 1 3 with
    | error e =>
      have : (srExperiment srMain none (some 6) 1 3).isOk = true := by decide +kernel
      rw [h] at this
      cases this
    | ok sums =>
      have : (srExperiment srMain none (some 6) 1 3).map (fun sums => (sums[2]?).map fun s => s.mean) =
        .ok (some (some (4 / 100))) := by decide +kernel
      rw [h] at this
      exact ⟨sums, rfl, by simpa [Except.map] using this⟩
  obtain ⟨sums, h1, h2⟩ := h
  obtain ⟨s, h3, h4⟩ := Option.map_eq_some_iff.mp h2
  have h5 := ((C79_experiment _ _ _ _ _ _).mp h1).1
  obtain ⟨res, e1, e2, e3⟩ := C99_round_trip strokes_prints "63e7947".toList "seed=0".toList (by decide) (by decide)
    (sums.map fun s => (⟨((s.mean.getD 0) * 100).num, 0, 0, 0⟩ : SRNumbers Int)) (by simpa using h5)
  have er : res = plotNames.zip (res.map Prod.snd) := by rw [← e2, zip_fst_snd]
  refine ⟨res.map Prod.snd, ?_, ?_⟩
  · rw [h1, ok_bind, e1, ok_bind]
    conv_lhs => rw [er]
    exact plotBars_zip (by rw [e3]; simpa using h5)
  · rw [e3, List.map_map, List.getElem?_map, h3, Option.map_some, Function.comp, h4]
    decide +kernel

end Verif
