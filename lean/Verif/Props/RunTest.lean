import Verif.Model.RunTest
import Verif.Props.Loader
import Verif.Props.Dummies
import Verif.Props.Experiment
import Verif.Props.Evaluation

/-!
# C119: On coinciding splits an experiment ends with coinciding scores
-/

namespace Verif

section
variable {R L P : Type}

/-- The batches of a loader and what `eval` collects from them. -/
theorem eval_collects {forward : Complex R L → Py (List P)} {loss : List P → List L → Py ℚ} {g : Complex R L → P}
    {lab : Complex R L → L} {cs : List (Complex R L)} {mB : Nat}
    (h : ∀ ds : List (Complex R L), ds ≠ [] → (∀ d ∈ ds, d ∈ cs) → (fromComplexList ds mB >>= forward) = .ok (ds.map g))
    (hy : ∀ c ∈ cs, c.y = some [lab c])
    (hloss : ∀ (p : List P) (t : List L), p.length = t.length → (∀ l ∈ t, ∃ c ∈ cs, lab c = l) → ∃ x, loss p t = .ok x)
    (bss : List (List (Complex R L))) (hb : ∀ ds ∈ bss, ds ≠ []) (hcs : ∀ ds ∈ bss, ∀ d ∈ ds, d ∈ cs) :
    ∃ loader, mapE (fun ds => fromComplexList ds mB) bss = .ok loader ∧
      ∀ acc, ∃ ls, foldE (evalBatch .classification forward Complex.targets loss) acc loader =
        .ok (acc.1 ++ bss.map (·.map lab), acc.2.1 ++ bss.map (·.map g), acc.2.2 ++ ls) := by
  induction bss with
  | nil => exact ⟨[], rfl, fun acc => ⟨[], by simp [foldE]⟩⟩
  | cons ds bss ih =>
    obtain ⟨loader, h1, h2⟩ := ih (fun d hd => hb d (by simp [hd])) (fun d hd => hcs d (by simp [hd]))
    obtain ⟨B, hB, hf⟩ := bind_eq_ok.mp (h ds (hb ds (by simp)) (hcs ds (by simp)))
    have hlab : B.y = some (ds.map lab) := by
      rw [(C06_batch_labels_dimension_size ds mB B hB).2.2.2.2.2.1 fun c hc => by rw [hy c (hcs ds (by simp) c hc)]; rfl]
      congr 1
      have : ∀ l : List (Complex R L), (∀ c ∈ l, c ∈ cs) → (l.flatMap fun c => c.y.getD []) = l.map lab := by
        intro l
        induction l with
        | nil => exact fun _ => rfl
        | cons c l ih =>
          intro hl
          rw [List.flatMap_cons, List.map_cons, ih fun c hc => hl c (by simp [hc]), hy c (hl c (by simp))]
          rfl
      exact this ds (hcs ds (by simp))
    obtain ⟨x, hx⟩ := hloss (ds.map g) (ds.map lab) (by simp) (by
      intro l hl
      obtain ⟨c, hc, rfl⟩ := List.mem_map.mp hl
      exact ⟨c, hcs ds (by simp) c hc, rfl⟩)
    refine ⟨B :: loader, by rw [mapE_cons, hB, ok_bind, h1, ok_bind], fun acc => ?_⟩
    obtain ⟨ls, hls⟩ := h2 (acc.1 ++ [ds.map lab], acc.2.1 ++ [ds.map g], acc.2.2 ++ [x])
    refine ⟨x :: ls, ?_⟩
    have hstep : evalBatch .classification forward Complex.targets loss acc B =
        .ok (acc.1 ++ [ds.map lab], acc.2.1 ++ [ds.map g], acc.2.2 ++ [x]) := by
      unfold evalBatch evalTargets Complex.targets
      rw [hf, ok_bind, hlab]
      dsimp only
      rw [ok_bind, hx]
      rfl
    rw [foldE, hstep, ok_bind, hls]
    simp

/-- The score of `eval` on the batches of a loader is that of the metric on predictions and labels. -/
theorem eval_value {V : Type} {forward : Complex R L → Py (List P)} {loss : List P → List L → Py ℚ} {g : Complex R L → P}
    {lab : Complex R L → L} {cs : List (Complex R L)} {mB : Nat} {metric : List P → Option (List L) → Py V}
    (h : ∀ ds : List (Complex R L), ds ≠ [] → (∀ d ∈ ds, d ∈ cs) → (fromComplexList ds mB >>= forward) = .ok (ds.map g))
    (hy : ∀ c ∈ cs, c.y = some [lab c])
    (hloss : ∀ (p : List P) (t : List L), p.length = t.length → (∀ l ∈ t, ∃ c ∈ cs, lab c = l) → ∃ x, loss p t = .ok x)
    {bss : List (List (Complex R L))} (hne : bss ≠ []) (hb : ∀ ds ∈ bss, ds ≠ []) (hcs : ∀ ds ∈ bss, ∀ d ∈ ds, d ∈ cs) :
    ∃ l, (mapE (fun ds => fromComplexList ds mB) bss >>= evalModel .classification forward Complex.targets loss metric) =
      (metric (bss.flatten.map g) (some (bss.flatten.map lab)) >>= fun v => .ok (v, l)) := by
  obtain ⟨loader, h1, h2⟩ := eval_collects h hy hloss bss hb hcs
  obtain ⟨ls, h3⟩ := h2 ([], [], [])
  refine ⟨meanLoss ls, ?_⟩
  rw [h1, ok_bind]
  unfold evalModel
  rw [h3, ok_bind]
  have e1 : catRows (bss.map (·.map g)) = .ok (bss.flatten.map g) := by
    unfold catRows
    rw [if_neg (by simpa using hne), List.map_flatten]
  have e2 : bss.map (·.map lab) ≠ [] := by simpa using hne
  dsimp only
  rw [List.nil_append, List.nil_append, List.nil_append, e1, ok_bind, if_neg e2, List.map_flatten, List.map_flatten]
  rfl

end

section
variable {𝕜 R L : Type} [Field 𝕜] [AddCommMonoid R] [Module 𝕜 R]

/-- The score of a split: the metric on predictions and labels in the order drawn. -/
theorem splitScore_value {forward : Complex R L → Py (List R)} (hnet : Network 𝕜 R L forward)
    {order : List (List Nat) → List (List Nat)} (ho : ∀ l, (order l).Perm l) {cs : List (Complex R L)} {maxDim : Nat}
    (hs : Storable cs maxDim) {st : Storage R L} (hst : collate cs maxDim = .ok st) (lab : Nat → L)
    (hy : ∀ (i : Nat) (c : Complex R L), cs[i]? = some c → c.y = some [lab i]) {loss : List R → List L → Py ℚ}
    (hloss : ∀ (p : List R) (t : List L), p.length = t.length → (∀ l ∈ t, ∃ i < cs.length, lab i = l) → ∃ x, loss p t = .ok x)
    (mB : Nat) : ∃ pred : Nat → R, ∀ (metric : List R → Option (List L) → Py ℚ) (splits : Splits) (split : Split)
      (ids : List Nat), splits.Has split.name ids → ids ≠ [] → (∀ i ∈ ids, i < cs.length) → ∀ permutation : List Nat,
      permutation.Perm (List.range ids.length) → ∀ b, 0 < b → ∃ drawn : List Nat, drawn.Perm ids ∧
        splitScore order ⟨st, none⟩ splits forward loss metric permutation b mB split =
          (metric (drawn.map pred) (some (drawn.map lab)) >>= fun v => .ok (some v)) := by
  obtain ⟨g, hg⟩ := hnet.byView mB
  by_cases hcs : cs = []
  · subst hcs
    refine ⟨fun _ => 0, fun metric splits split ids _ hne hids => ?_⟩
    obtain ⟨i, l, rfl⟩ := List.exists_cons_of_ne_nil hne
    exact absurd (hids i (by simp)) (by simp)
  refine ⟨fun i => g ((cs[i]?.getD (cs.head hcs)).view), ?_⟩
  intro metric splits split ids hsp hne hids permutation hp b hb
  obtain ⟨positions, hpos, hperm⟩ : ∃ positions : List Nat,
      (split.shuffle permutation = none ∧ positions = List.range ids.length ∨
        split.shuffle permutation = some positions ∧ positions.Perm (List.range ids.length)) ∧
      positions.Perm (List.range ids.length) := by
    cases split with
    | train => exact ⟨permutation, .inr ⟨rfl, hp⟩, hp⟩
    | valid => exact ⟨_, .inl ⟨rfl, rfl⟩, .refl _⟩
    | test => exact ⟨_, .inl ⟨rfl, rfl⟩, .refl _⟩
  obtain ⟨rd, h1, h2, -⟩ := splitLoader_reads ho (hs.hasAttribute hcs) hst
    (P := fun c c' => c'.view = c.view ∧ c'.Ready ∧ 0 < c'.cellsIn 0 ∧ c'.y = c.y)
    (fun i c hi => hs.reads hst hi) hsp hne hids hpos hb mB []
  obtain ⟨drawn, hdr⟩ : ∃ drawn, drawn = positions.map fun j => ids[j]?.getD 0 := ⟨_, rfl⟩
  have hdp : drawn.Perm ids := by
    rw [hdr]
    have := hperm.map fun j => ids[j]?.getD 0
    rwa [map_getD_range ids 0] at this
  have hdm : ∀ i ∈ drawn, i ∈ ids := fun i hi => hdp.mem_iff.mp hi
  have hdn : drawn ≠ [] := by
    rintro rfl
    exact hne (List.nil_perm.mp hdp)
  rw [← hdr] at h2
  obtain ⟨e1, e2, -, e4⟩ := chunks_spec hb drawn
  refine ⟨drawn, hdp, ?_⟩
  have hy' : ∀ i ∈ drawn, (rd i).y = some [lab i] := by
    intro i hi
    obtain ⟨c, k1, k2⟩ := h1 i (hdm i hi)
    rw [k2.2.2.2, hy i c k1]
  obtain ⟨l, hl⟩ := eval_value (metric := metric) (loss := loss) (forward := forward) (mB := mB) (g := fun c => g c.view)
    (lab := fun c => ((c.y.getD []).head?).getD (lab 0)) (cs := drawn.map rd)
    (fun ds hd hm => by
      refine hg ds hd (fun d hd' => ?_) (fun d hd' => ?_)
      · obtain ⟨i, hi, rfl⟩ := List.mem_map.mp (hm d hd')
        obtain ⟨c, k1, k2⟩ := h1 i (hdm i hi)
        exact k2.2.1
      · obtain ⟨i, hi, rfl⟩ := List.mem_map.mp (hm d hd')
        obtain ⟨c, k1, k2⟩ := h1 i (hdm i hi)
        exact k2.2.2.1)
    (by
      intro c hc
      obtain ⟨i, hi, rfl⟩ := List.mem_map.mp hc
      rw [hy' i hi]
      rfl)
    (fun p t hpt ht => hloss p t hpt fun l hl => by
      obtain ⟨c, hc, rfl⟩ := ht l hl
      obtain ⟨i, hi, rfl⟩ := List.mem_map.mp hc
      exact ⟨i, hids i (hdm i hi), by rw [hy' i hi]; rfl⟩)
    (bss := (chunks b drawn).map fun p => p.map rd)
    (by
      intro h0
      rw [List.map_eq_nil_iff] at h0
      rw [h0] at e1
      exact hdn (by simpa using e1.symm))
    (by
      intro ds hd
      obtain ⟨p, hp, rfl⟩ := List.mem_map.mp hd
      simpa using (e2 p hp).1)
    (by
      intro ds hd d hd'
      obtain ⟨p, hp, rfl⟩ := List.mem_map.mp hd
      obtain ⟨i, hi, rfl⟩ := List.mem_map.mp hd'
      exact List.mem_map.mpr ⟨i, by rw [← e1]; exact List.mem_flatten.mpr ⟨p, hp, hi⟩, rfl⟩)
  have hflat : ((chunks b drawn).map fun p => p.map rd).flatten = drawn.map rd := by
    rw [← List.map_flatten, e1]
  rw [hflat, List.map_map, List.map_map] at hl
  have hpred : drawn.map ((fun c => g c.view) ∘ rd) = drawn.map fun i => g ((cs[i]?.getD (cs.head hcs)).view) := by
    apply List.map_congr_left
    intro i hi
    obtain ⟨c, k1, k2⟩ := h1 i (hdm i hi)
    simp [k1, k2.1]
  have hlabs : drawn.map ((fun c => ((c.y.getD []).head?).getD (lab 0)) ∘ rd) = drawn.map lab := by
    apply List.map_congr_left
    intro i hi
    simp [hy' i hi]
  rw [hpred, hlabs] at hl
  unfold splitScore
  have h2' : splitLoader order ⟨st, none⟩ splits split.name (split.shuffle permutation) b mB =
    mapE (fun ds => fromComplexList ds mB) ((chunks b drawn).map fun p => p.map rd) := h2
  rw [h2']
  cases hm : mapE (fun ds => fromComplexList ds mB) ((chunks b drawn).map fun p => p.map rd) with
  | error e =>
    rw [hm, error_bind] at hl
    rw [error_bind]
    cases hv : metric (drawn.map fun i => g ((cs[i]?.getD (cs.head hcs)).view)) (some (drawn.map lab)) with
    | error e' => rw [hv, error_bind] at hl; rw [error_bind]; cases hl; rfl
    | ok v => rw [hv, ok_bind] at hl; cases hl
  | ok batches =>
    rw [hm, ok_bind] at hl
    rw [ok_bind, hl]
    cases hv : metric (drawn.map fun i => g ((cs[i]?.getD (cs.head hcs)).view)) (some (drawn.map lab)) with
    | error e' => rfl
    | ok v => rfl

/-- **C119** The score of a split for a metric that does not depend on the order is the same for all permutations drawn by
the training loader, all batch sizes and all splits with the same complexes, and it is the same exception if there is one. -/
theorem C119_scores_of_coinciding_splits (forward : Complex R L → Py (List R)) (hnet : Network 𝕜 R L forward)
    (order : List (List Nat) → List (List Nat)) (ho : ∀ l, (order l).Perm l) (cs : List (Complex R L)) (maxDim : Nat)
    (hs : Storable cs maxDim) (st : Storage R L) (hst : collate cs maxDim = .ok st) (lab : Nat → L)
    (hy : ∀ (i : Nat) (c : Complex R L), cs[i]? = some c → c.y = some [lab i]) (loss : List R → List L → Py ℚ)
    (hloss : ∀ (p : List R) (t : List L), p.length = t.length → (∀ l ∈ t, ∃ i < cs.length, lab i = l) → ∃ x, loss p t = .ok x)
    (metric : List R → Option (List L) → Py ℚ)
    (hsym : ∀ ds ds' : List (R × L), ds.Perm ds' →
      metric (ds.map Prod.fst) (some (ds.map Prod.snd)) = metric (ds'.map Prod.fst) (some (ds'.map Prod.snd)))
    (splits splits' : Splits) (split split' : Split) (ids ids' : List Nat) (hsp : splits.Has split.name ids)
    (hsp' : splits'.Has split'.name ids') (hids : ids.Perm ids') (hne : ids ≠ []) (hin : ∀ i ∈ ids, i < cs.length)
    (permutation permutation' : List Nat) (hp : permutation.Perm (List.range ids.length))
    (hp' : permutation'.Perm (List.range ids.length)) (b b' : Nat) (hb : 0 < b) (hb' : 0 < b') (mB : Nat) :
    splitScore order ⟨st, none⟩ splits forward loss metric permutation b mB split =
      splitScore order ⟨st, none⟩ splits' forward loss metric permutation' b' mB split' := by
  obtain ⟨pred, h⟩ := splitScore_value hnet ho hs hst lab hy hloss mB
  obtain ⟨d, h1, h2⟩ := h metric splits split ids hsp hne hin permutation hp b hb
  obtain ⟨d', h1', h2'⟩ := h metric splits' split' ids' hsp' (fun h0 => hne (by rw [h0] at hids; exact List.perm_nil.mp hids))
    (fun i hi => hin i (hids.mem_iff.mpr hi)) permutation' (by rw [← hids.length_eq]; exact hp') b' hb'
  have := hsym (d.map fun i => (pred i, lab i)) (d'.map fun i => (pred i, lab i)) ((h1.trans (hids.trans h1'.symm)).map _)
  simp only [List.map_map, Function.comp_def] at this
  rw [h2, h2', this]

end

section
variable {S : Type}

/-- The curves have the same lengths. -/
structure Curves.Even (c : Curves) : Prop where
  train : c.train.length = c.valid.length
  test : c.test.length = c.valid.length

theorem epochLoop_ok {t : Trial S} (hp : 0 < t.period) (htr : ∀ s, ∃ r, t.train s = .ok r)
    (hev : ∀ split s, ∃ v, t.eval split s = .ok v) : ∀ (es : List Nat) (s : S) (c : Curves), c.Even →
    ∃ r, epochLoop t es s c = .ok r ∧ r.2.Even ∧ (es ≠ [] ∨ c.valid ≠ [] → r.2.valid ≠ []) := by
  have hd : ∀ e, ∃ b, dividesPeriod t.period e = .ok b := fun e => ⟨_, by unfold dividesPeriod; rw [if_neg (by omega)]⟩
  intro es
  induction es with
  | nil => exact fun s c h => ⟨(s, c), rfl, h, fun h => h.resolve_left (fun h => h rfl)⟩
  | cons e es ih =>
    intro s c hc
    obtain ⟨r, hr⟩ := htr s
    obtain ⟨b, hb⟩ : ∃ b, evaluatesTrain t.period e = .ok b := by
      unfold evaluatesTrain
      split_ifs
      · exact ⟨_, rfl⟩
      · exact hd e
    obtain ⟨p, hp'⟩ : ∃ p, nextTrainPerf t r.1 c.trainPerf b = .ok p := by
      cases b with
      | true => exact hev .train r.1
      | false => exact ⟨_, rfl⟩
    obtain ⟨v, hv⟩ := hev .valid r.1
    obtain ⟨w, hw⟩ : ∃ w, testPerf t r.1 = .ok w := by
      unfold testPerf
      split_ifs
      · exact hev .test r.1
      · exact ⟨_, rfl⟩
    have hbody : epochBody t s c e = .ok (((schedule t r.1 v).1,
        ⟨c.loss ++ r.2, c.train ++ [p], c.valid ++ [v], c.test ++ [w], p⟩),
        (schedule t r.1 v).2) := by
      unfold epochBody
      rw [hr, ok_bind, hb, ok_bind, hp', ok_bind, hv, ok_bind, hw]
      rfl
    have heven : (Curves.mk (c.loss ++ r.2) (c.train ++ [p]) (c.valid ++ [v]) (c.test ++ [w]) p).Even := ⟨by simp [hc.train], by simp [hc.test]⟩
    unfold epochLoop
    rw [hbody, ok_bind]
    dsimp only
    split_ifs with hstop
    · exact ⟨_, rfl, heven, fun _ => by simp⟩
    · obtain ⟨b', hb'⟩ := hd e
      obtain ⟨r', h1, h2, h3⟩ := ih (schedule t r.1 v).1 _ heven
      refine ⟨r', by rw [hb', ok_bind, h1], h2, fun _ => h3 (.inr (by simp))⟩

theorem argLoop_lt (better : ℚ → ℚ → Bool) : ∀ (l : List (Option ℚ)) (best : ℚ) (place i : Nat), place < i →
    argLoop better best place i l < i + l.length ∨ l = [] := by
  intro l
  induction l with
  | nil => exact fun _ _ _ _ => .inr rfl
  | cons a l ih =>
    intro best place i h
    left
    cases a with
    | none => simp [argLoop]
    | some v =>
      rw [argLoop]
      split_ifs
      · rcases ih v i (i + 1) (by omega) with h' | rfl
        · simp only [List.length_cons]; omega
        · simp [argLoop]
      · rcases ih best place (i + 1) (by omega) with h' | rfl
        · simp only [List.length_cons]; omega
        · simp only [argLoop, List.length_cons, List.length_nil]; omega

theorem argBest_ok (better : ℚ → ℚ → Bool) {l : List (Option ℚ)} (h : l ≠ []) : ∃ i, argBest better l = .ok i ∧ i < l.length := by
  cases l with
  | nil => exact absurd rfl h
  | cons a l =>
    cases a with
    | none => exact ⟨0, rfl, by simp⟩
    | some v =>
      refine ⟨_, rfl, ?_⟩
      rcases argLoop_lt better l v 0 1 (by omega) with h' | rfl
      · simp only [List.length_cons]; omega
      · simp [argLoop]

/-- An experiment whose training and evaluation succeed ends with a report. -/
theorem runExp_ok {t : Trial S} (hrun : t.untrained = true ∨ 0 < t.epochs ∧ 0 < t.period) (htr : ∀ s, ∃ r, t.train s = .ok r)
    (hev : ∀ split s, ∃ v, t.eval split s = .ok v) (s : S) : ∃ r, runExp t s = .ok r := by
  obtain ⟨⟨s', c, best⟩, h1, h2, h3⟩ : ∃ r, trainingPhase t s = .ok r ∧ r.2.1.Even ∧ r.2.2 < r.2.1.valid.length := by
    unfold trainingPhase
    split_ifs with hu
    · exact ⟨_, rfl, ⟨rfl, rfl⟩, by simp⟩
    · obtain ⟨he, hp⟩ := hrun.resolve_left hu
      obtain ⟨r, k1, k2, k3⟩ := epochLoop_ok hp htr hev (List.range' 1 t.epochs) s {} ⟨rfl, rfl⟩
      have hne : r.2.valid ≠ [] := k3 (.inl (by
        intro h0
        have := congrArg List.length h0
        simp at this
        omega))
      obtain ⟨best, b1, b2⟩ : ∃ i, bestEpoch t.minimize r.2.valid = .ok i ∧ i < r.2.valid.length := by
        unfold bestEpoch
        split_ifs
        · exact argBest_ok _ hne
        · exact argBest_ok _ hne
      exact ⟨(r.1, r.2, best), by rw [k1, ok_bind, b1]; rfl, k2, b2⟩
  have hf : ∀ split, ∃ v, finalPerf t split s' = .ok v := by
    intro split
    unfold finalPerf
    split_ifs
    · exact ⟨_, rfl⟩
    · exact hev split s'
  obtain ⟨v1, e1⟩ := hf .train
  obtain ⟨v2, e2⟩ := hf .valid
  obtain ⟨v3, e3⟩ : ∃ w, testPerf t s' = .ok w := by
    unfold testPerf
    split_ifs
    · exact hev .test s'
    · exact ⟨_, rfl⟩
  have hg : ∀ l : List (Option ℚ), l.length = c.valid.length → ∃ v, getAt l best = .ok v := by
    intro l hl
    exact ⟨_, getAt_eq_ok.mpr (List.getElem?_eq_getElem (by rw [hl]; exact h3))⟩
  obtain ⟨w1, g1⟩ := hg c.train h2.train
  obtain ⟨w2, g2⟩ := hg c.valid rfl
  obtain ⟨w3, g3⟩ := hg c.test h2.test
  unfold runExp
  rw [h1, ok_bind]
  dsimp only
  rw [e1, ok_bind, e2, ok_bind, e3, ok_bind, g1, ok_bind, g2, ok_bind, g3, ok_bind]
  exact ⟨_, rfl⟩

/-- **C119** The test of a whole experiment: if the three splits always get the same score then the test passes whenever
the run succeeds; without a test split it never passes (NaN is not equal to NaN). -/
theorem C119_assertions_of_the_test (t : Trial S) (s : S) :
    (t.hasTest = true → t.strongly = false →
      (∀ s v split, t.eval split s = .ok v → v.isSome) →
      (∀ s split split', t.eval split s = t.eval split' s) → runExpTest t s = runExp t s >>= fun _ => .ok ()) ∧
    (t.hasTest = false ∨ t.strongly = true → runExpTest t s = runExp t s >>= fun _ => .error .assertion) := by
  cases hr : runExp t s with
  | error e =>
    unfold runExpTest
    rw [hr]
    exact ⟨fun _ _ _ _ => rfl, fun _ => rfl⟩
  | ok r =>
    obtain ⟨states, fin, -, -, h1, h2⟩ := C53_final_scores t s r hr
    unfold runExpTest
    rw [hr, ok_bind, ok_bind, ok_bind]
    constructor
    · intro ht hst hnum heq
      rw [if_neg (by simp [hst])] at h1
      rw [if_pos ht] at h2
      obtain ⟨v, hv⟩ := Option.isSome_iff_exists.mp (hnum fin _ _ h1.1)
      have e1 : r.lastValid = some v := by
        have := h1.2
        rw [heq fin .valid .train, h1.1, ok_inj] at this
        rw [← this, hv]
      have e2 : r.lastTest = some v := by
        have := h2
        rw [heq fin .test .train, h1.1, ok_inj] at this
        rw [← this, hv]
      rw [hv, e1, e2]
      simp [sameScore, pyAssert, ok_bind]
    · intro h
      cases hst : t.strongly with
      | true =>
        rw [if_pos hst] at h1
        rw [h1.1]
        rfl
      | false =>
        have ht : t.hasTest = false := h.resolve_right (by simp [hst])
        rw [if_neg (by simp [ht])] at h2
        rw [h2]
        cases hc : sameScore r.lastTrain r.lastValid with
        | false => rfl
        | true =>
          cases r.lastTrain <;> rfl

end

section
variable {𝕜 R S : Type} [Field 𝕜] [AddCommMonoid R] [Module 𝕜 R]

/-- The accuracy as metric of an experiment; `scores` reads the class scores off a row. -/
theorem accuracy_value (scores : R → List (Option ℚ)) (hsc : ∀ r, scores r ≠ []) (preds : List R) (labels : List Nat)
    (hl : preds.length = labels.length) (hne : labels ≠ []) :
    ∃ v, accuracyMetric (preds.map scores) (some labels) = .ok v := by
  unfold accuracyMetric
  rw [mapE_classes, if_neg (by
    intro h
    obtain ⟨r, -, h0⟩ := List.mem_map.mp h
    exact hsc r h0), ok_bind]
  dsimp only
  unfold accuracyScore
  rw [if_pos ⟨by simp [hl], hne⟩]
  exact ⟨_, rfl⟩

/-- **C119** `test_run_exp_on_dummym`: on the dummy molecules, with all three splits the whole dataset, an experiment with any
of the networks and the accuracy as its metric passes the test, for all numbers of epochs, batch sizes and permutations, for
everything the training makes of the parameters, and for all criteria that are defined on labels 0 and 1. -/
theorem C119_run_exp_on_dummym (num : Nat → R) (order : List (List Nat) → List (List Nat)) (ho : ∀ l, (order l).Perm l)
    (forward : S → Complex R Int → Py (List R)) (hnet : ∀ s, Network 𝕜 R Int (forward s))
    (loss : List R → List Int → Py ℚ)
    (hloss : ∀ (p : List R) (t : List Int), p.length = t.length → (∀ l ∈ t, l = 0 ∨ l = 1) → ∃ x, loss p t = .ok x)
    (scores : R → List (Option ℚ)) (hsc : ∀ r, scores r ≠ []) (draw : S → List Nat)
    (hdraw : ∀ s, (draw s).Perm (List.range 19)) (b : Nat) (hb : 0 < b) (mB : Nat) :
    ∃ st, dummyMolProcess num false = .ok st ∧ ∀ (t : Trial S) (s : S),
      t.hasTest = true → t.strongly = false → (t.untrained = true ∨ 0 < t.epochs ∧ 0 < t.period) →
      (∀ s, ∃ r, t.train s = .ok r) →
      (∀ split s, t.eval split s = splitScore order ⟨st, none⟩ (dummySplits order st) (forward s) loss
        (fun preds ys => accuracyMetric (preds.map scores) (ys.map (·.map Int.toNat))) (draw s) b mB split) →
      runExpTest t s = .ok () := by
  obtain ⟨ks, h1, h2, h3, -⟩ := molTesting_built num
  obtain ⟨cs, hcs⟩ : ∃ cs, cs = alternateLabels ks := ⟨_, rfl⟩
  have hlen : cs.length = 19 := by rw [hcs, ← h2]; unfold alternateLabels; simp
  have hget : ∀ (i : Nat) (c : Complex R Int), cs[i]? = some c → ∃ k ∈ ks, c = { k with y := some [((i % 2 : Nat) : Int)] } := by
    intro i c hi
    rw [hcs] at hi
    unfold alternateLabels at hi
    rw [List.getElem?_map, List.getElem?_zipIdx] at hi
    cases hk : ks[i]? with
    | none => rw [hk] at hi; simp at hi
    | some k =>
      rw [hk] at hi
      simp at hi
      exact ⟨k, List.mem_of_getElem? hk, by rw [← hi]; simp⟩
  have hmem : ∀ c ∈ cs, ∃ k ∈ ks, ∃ y : Int, c = { k with y := some [y] } := by
    intro c hc
    obtain ⟨i, hi, rfl⟩ := List.getElem_of_mem hc
    obtain ⟨k, hk, e⟩ := hget i _ (List.getElem?_eq_getElem hi)
    exact ⟨k, hk, _, e⟩
  have hs : Storable cs 2 := by
    refine ⟨?_, ?_, ?_, ?_⟩
    · intro c hc
      obtain ⟨k, hk, y, rfl⟩ := hmem c hc
      have r := (h3 k hk).1.sound.ready
      exact ⟨{ len := r.valid.len, dim := r.valid.dim, up := r.valid.up, down := r.valid.down, known := r.valid.known,
               top := r.valid.top, valid := r.valid.valid }, r.featured, r.vertices⟩
    · intro c hc
      obtain ⟨k, hk, y, rfl⟩ := hmem c hc
      exact (h3 k hk).1.sound.full
    · intro c hc
      obtain ⟨k, hk, y, rfl⟩ := hmem c hc
      exact (h3 k hk).2.1
    · intro c hc c' hc'
      obtain ⟨k, hk, y, rfl⟩ := hmem c hc
      obtain ⟨k', hk', y', rfl⟩ := hmem c' hc'
      rfl
  have hne : cs ≠ [] := by rintro rfl; simp at hlen
  obtain ⟨st, hst⟩ := (C36_storing_succeeds cs 2).mpr ⟨hne, by
    intro c hc l hl
    obtain ⟨k, -, y, rfl⟩ := hmem c hc
    rw [← Option.some.inj hl]
    rfl, .inr fun c hc => by
    obtain ⟨k, -, y, rfl⟩ := hmem c hc
    rfl⟩
  have hsplits : dummySplits order st = ⟨some (List.range 19), some (List.range 19), some (List.range 19)⟩ := by
    have := (C37_length_is_the_number_of_complexes order ho cs 2 st hst).1 (hs.hasAttribute hne)
    unfold dummySplits
    rw [this, hlen]
  refine ⟨st, ?_, ?_⟩
  · unfold dummyMolProcess dummyMolFactory
    rw [h1, ← hst, hcs]
    rfl
  intro t s ht hstr hrun htr hev
  have hy : ∀ (i : Nat) (c : Complex R Int), cs[i]? = some c → c.y = some [((i % 2 : Nat) : Int)] := by
    intro i c hi
    obtain ⟨k, -, rfl⟩ := hget i c hi
    rfl
  have hl : ∀ (p : List R) (t : List Int), p.length = t.length → (∀ l ∈ t, ∃ i < cs.length, ((i % 2 : Nat) : Int) = l) →
      ∃ x, loss p t = .ok x := fun p t hp h => hloss p t hp fun l hl => by
    obtain ⟨i, -, rfl⟩ := h l hl
    omega
  have hhas : ∀ split : Split, (dummySplits order st).Has split.name (List.range 19) := by
    intro split
    rw [hsplits]
    cases split with
    | train => exact .train _ rfl
    | valid => exact .valid _ rfl
    | test => exact .test _ rfl
  have hin : ∀ i ∈ List.range 19, i < cs.length := fun i hi => by rw [hlen]; exact List.mem_range.mp hi
  have hd : ∀ s, (draw s).Perm (List.range (List.range 19).length) := fun s => by rw [List.length_range]; exact hdraw s
  have heq : ∀ s split split', t.eval split s = t.eval split' s := by
    intro s split split'
    rw [hev, hev]
    refine C119_scores_of_coinciding_splits (𝕜 := 𝕜) (forward s) (hnet s) order ho cs 2 hs st hst _ hy loss hl _ ?_ _ _ split split' _ _
      (hhas split) (hhas split') (.refl _) (by simp) hin _ _ (hd s) (hd s) b b hb hb mB
    intro ds ds' h
    have := C62_accuracy_does_not_depend_on_order (ds.map fun p => (scores p.1, p.2.toNat)) (ds'.map fun p => (scores p.1, p.2.toNat))
      (h.map _)
    simpa [Function.comp_def] using this
  have hsome : ∀ s split, ∃ v, t.eval split s = .ok (some v) := by
    intro s split
    obtain ⟨pred, hv⟩ := splitScore_value (𝕜 := 𝕜) (hnet s) ho hs hst _ hy hl mB
    obtain ⟨d, hdp, hd'⟩ := hv (fun preds ys => accuracyMetric (preds.map scores) (ys.map (·.map Int.toNat))) _ split _ (hhas split)
      (by simp) hin (draw s) (hd s) b hb
    obtain ⟨v, hv⟩ := accuracy_value scores hsc (d.map pred) ((d.map fun i => ((i % 2 : Nat) : Int)).map Int.toNat) (by simp) (by
      have := hdp.length_eq
      intro h0
      have := congrArg List.length h0
      simp at this
      subst this
      simp at *)
    refine ⟨v, ?_⟩
    rw [hev, hd']
    dsimp only [Option.map_some]
    rw [hv, ok_bind]
  obtain ⟨r, hr⟩ := runExp_ok hrun htr (fun split s => by
    obtain ⟨v, hv⟩ := hsome s split
    exact ⟨_, hv⟩) s
  rw [(C119_assertions_of_the_test t s).1 ht hstr (fun s v split h => by
    obtain ⟨w, hw⟩ := hsome s split
    rw [hw, ok_inj] at h
    rw [← h]
    rfl) heq, hr, ok_bind]

end

/-! ### Concrete cases -/

open Fixtures in
/-- A network with a state that is the permutation drawn next; the criterion is the mean absolute error. -/
example (order : List (List Nat) → List (List Nat)) (ho : ∀ l, (order l).Perm l) :=
  C119_run_exp_on_dummym (𝕜 := ℚ) (S := { l : List Nat // l.Perm (List.range 19) }) (fun n => (n : ℚ)) order ho
    (fun _ => sparseNetQ.forward ℚ SparseLevel.forward) (fun _ => .sparse sparseNetQ sparseNetQ_fits)
    (fun p t => .ok ((p.zip t).map fun a => |a.1 - (a.2 : ℚ)|).sum) (fun _ _ _ _ => ⟨_, rfl⟩) (fun x => [some x, some 20])
    (fun _ => by simp) (fun s => s.1) (fun s => s.2) 3 (by decide) 2

/-- A trial whose splits coincide and which has both kinds of scores. -/
def evenTrial (hasTest : Bool) : Trial Nat where
  epochs := 1
  period := 10
  minimize := false
  untrained := false
  earlyStop := false
  strongly := false
  hasTest := hasTest
  scheduler := .none
  train s := .ok (s + 1, [1])
  eval _ s := .ok (some (s : ℚ))
  decay s _ := s
  lrLow _ := false

example : runExpTest (evenTrial true) 4 = .ok () ∧ runExpTest (evenTrial false) 4 = .error .assertion := by
  refine ⟨?_, ?_⟩
  · rw [(C119_assertions_of_the_test (evenTrial true) 4).1 rfl rfl
      (by intro s v split h; rw [← ok_inj.mp h]; rfl) (by intros; rfl)]
    rfl
  · rw [(C119_assertions_of_the_test (evenTrial false) 4).2 (.inl rfl)]
    rfl

open Fixtures in
/-- Three complexes in batches of two, shuffled, and in one batch. -/
example (st : Storage ℚ Nat) (hst : collate shelf 2 = .ok st) :=
  C119_scores_of_coinciding_splits (𝕜 := ℚ) (sparseNetQ.forward ℚ SparseLevel.forward) (.sparse sparseNetQ sparseNetQ_fits)
    asGiven (fun _ => .refl _) shelf 2 shelf_storable st hst
    (fun i => ((((shelf[i]?).bind (·.y)).getD []).head?).getD 0)
    (by
      intro i c hi
      have h := shelf_storable
      match i, hi with
      | 0, hi => rw [← Option.some.inj hi]; decide
      | 1, hi => rw [← Option.some.inj hi]; decide
      | 2, hi => rw [← Option.some.inj hi]; decide)
    (fun p t => .ok ((p.zip t).map fun a => |a.1 - (a.2 : ℚ)|).sum) (fun _ _ _ _ => ⟨_, rfl⟩)
    (fun preds ys => accuracyMetric (preds.map fun x => [some x, some 20]) ys)
    (by
      intro ds ds' h
      have := C62_accuracy_does_not_depend_on_order (ds.map fun p => ([some p.1, some 20], p.2))
        (ds'.map fun p => ([some p.1, some 20], p.2)) (h.map _)
      simpa [Function.comp_def] using this)
    ⟨some [0, 1, 2], some [2, 1, 0], none⟩ ⟨some [0, 1, 2], some [2, 1, 0], none⟩ .train .valid [0, 1, 2] [2, 1, 0]
    (.train _ rfl) (.valid _ rfl) (by decide) (by decide) (by decide) [1, 0, 2] [0, 1, 2] (by decide) (by decide) 2 3
    (by decide) (by decide) 2

end Verif
