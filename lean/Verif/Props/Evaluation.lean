import Mathlib.Algebra.Order.BigOperators.Group.List
import Verif.Props.Experiment

/-!
# C62: evaluation does not depend on the division into batches

A loader yields the collations of the parts of a division of the dataset into non-empty batches.
-/

namespace Verif

variable {P V : Type}

/-! ### Helpers -/

section
variable {A B : Type} {collate : List A → Py B} {forward : B → Py (List P)} {g : A → P} {cs : List A}

theorem infer_batches (h : ∀ ds : List A, ds ≠ [] → (∀ d ∈ ds, d ∈ cs) → (collate ds >>= forward) = .ok (ds.map g))
    {bss : List (List A)} (hne : bss ≠ []) (hb : ∀ ds ∈ bss, ds ≠ []) (hcs : ∀ d ∈ bss.flatten, d ∈ cs) :
    (mapE collate bss >>= infer forward) = .ok (bss.flatten.map g) := by
  have key : ∀ bss : List (List A), (∀ ds ∈ bss, ds ≠ []) → (∀ d ∈ bss.flatten, d ∈ cs) →
      ∃ loader, mapE collate bss = .ok loader ∧ mapE forward loader = .ok (bss.map fun ds => ds.map g) := by
    intro bss
    induction bss with
    | nil => exact fun _ _ => ⟨[], rfl, rfl⟩
    | cons ds bss ih =>
      intro hb hcs
      obtain ⟨loader, h1, h2⟩ := ih (fun d hd => hb d (by simp [hd])) (fun d hd => hcs d (by
        rw [List.flatten_cons]; exact List.mem_append_right _ hd))
      obtain ⟨b, h3, h4⟩ := bind_eq_ok.mp (h ds (hb ds (by simp)) fun d hd => hcs d (by
        rw [List.flatten_cons]; exact List.mem_append_left _ hd))
      refine ⟨b :: loader, ?_, ?_⟩
      · rw [mapE_cons, h3, h1]; rfl
      · rw [mapE_cons, h4, h2]; rfl
  obtain ⟨loader, h1, h2⟩ := key bss hb hcs
  rw [h1, ok_bind]
  unfold infer
  rw [h2, ok_bind]
  unfold catRows
  rw [if_neg (by simpa using hne), List.map_flatten]

end

section
variable {R L : Type}

theorem eval_fold {B T : Type} {task : Task} {forward : B → Py (List P)} {targets : B → Py (List T)}
    {loss : List P → List T → Py ℚ} :
    ∀ (loader : List B) (acc acc' : List (List T) × List (List P) × List ℚ),
      foldE (evalBatch task forward targets loss) acc loader = .ok acc' →
      ∃ preds, mapE forward loader = .ok preds ∧ acc'.2.1 = acc.2.1 ++ preds ∧
        (task = .isomorphism → acc'.1 = acc.1) ∧
        (task ≠ .isomorphism → ∃ ts, mapE targets loader = .ok ts ∧ acc'.1 = acc.1 ++ ts) := by
  intro loader
  induction loader with
  | nil =>
    intro acc acc' h
    obtain rfl := ok_inj.mp h
    exact ⟨[], rfl, by simp, fun _ => rfl, fun _ => ⟨[], rfl, by simp⟩⟩
  | cons b loader ih =>
    intro acc acc' h
    obtain ⟨acc1, hb, h⟩ := bind_eq_ok.mp (show (evalBatch task forward targets loss acc b >>= fun a =>
      foldE (evalBatch task forward targets loss) a loader) = _ from h)
    obtain ⟨preds, h1, h2, h3, h4⟩ := ih acc1 acc' h
    unfold evalBatch at hb
    obtain ⟨p, hp, hb⟩ := bind_eq_ok.mp hb
    obtain ⟨tl, ht, hb⟩ := bind_eq_ok.mp hb
    rw [pure_eq_ok, ok_inj] at hb
    subst hb
    refine ⟨p :: preds, by rw [mapE_cons, hp, h1]; rfl, by rw [h2]; simp, ?_, ?_⟩
    · rintro rfl
      rw [h3 rfl]
      obtain rfl := ok_inj.mp ht
      simp
    · intro hne
      obtain ⟨ts, h5, h6⟩ := h4 hne
      have : ∃ t, targets b = .ok t ∧ tl.1 = [t] := by
        unfold evalTargets at ht
        split at ht
        · exact absurd rfl hne
        · obtain ⟨_, _, ht⟩ := bind_eq_ok.mp ht
          cases ht
        · obtain ⟨t, h7, ht⟩ := bind_eq_ok.mp ht
          obtain ⟨l, _, ht⟩ := bind_eq_ok.mp ht
          rw [pure_eq_ok, ok_inj] at ht
          subst ht
          exact ⟨t, h7, rfl⟩
      obtain ⟨t, h7, h8⟩ := this
      exact ⟨t :: ts, by rw [mapE_cons, h7, h5]; rfl, by rw [h6, h8]; simp⟩

theorem targets_batches {mB : Nat} {bss : List (List (Complex R L))} {loader : List (Complex R L)}
    {ts : List (List L)} (h : mapE (fun ds => fromComplexList ds mB) bss = .ok loader)
    (ht : mapE Complex.targets loader = .ok ts) (hy : ∀ c ∈ bss.flatten, c.y.isSome) :
    ts.flatten = bss.flatten.flatMap fun c => c.y.getD [] := by
  induction bss generalizing loader ts with
  | nil =>
    obtain rfl := ok_inj.mp h
    obtain rfl := ok_inj.mp ht
    rfl
  | cons ds bss ih =>
    rw [mapE_cons] at h
    obtain ⟨b, h1, h⟩ := bind_eq_ok.mp h
    obtain ⟨loader', h2, h⟩ := bind_eq_ok.mp h
    obtain rfl := ok_inj.mp h
    rw [mapE_cons] at ht
    obtain ⟨t, h3, ht⟩ := bind_eq_ok.mp ht
    obtain ⟨ts', h4, ht⟩ := bind_eq_ok.mp ht
    obtain rfl := ok_inj.mp ht
    have hb := (C06_batch_labels_dimension_size ds mB b h1).2.2.2.2.2.1 fun c hc => hy c (by
      rw [List.flatten_cons]; exact List.mem_append_left _ hc)
    have h3' : t = ds.flatMap fun c => c.y.getD [] := by
      unfold Complex.targets at h3
      rw [hb] at h3
      exact (ok_inj.mp h3).symm
    rw [List.flatten_cons, List.flatten_cons, List.flatMap_append,
      ← ih h2 h4 fun c hc => hy c (by rw [List.flatten_cons]; exact List.mem_append_right _ hc), h3']

theorem eval_batches {task : Task} {forward : Complex R L → Py (List P)} {loss : List P → List L → Py ℚ}
    {metric : List P → Option (List L) → Py V} {g : Complex R L → P} {cs : List (Complex R L)} {mB : Nat}
    (h : ∀ ds : List (Complex R L), ds ≠ [] → (∀ d ∈ ds, d ∈ cs) →
      (fromComplexList ds mB >>= forward) = .ok (ds.map g))
    {bss : List (List (Complex R L))} (hb : ∀ ds ∈ bss, ds ≠ []) (hcs : ∀ d ∈ bss.flatten, d ∈ cs)
    (hy : ∀ c ∈ bss.flatten, c.y.isSome) {v : V} {l : Option ℚ}
    (hrun : (mapE (fun ds => fromComplexList ds mB) bss >>= evalModel task forward Complex.targets loss metric) =
      .ok (v, l)) :
    metric (bss.flatten.map g)
      (if task = .isomorphism then none else some (bss.flatten.flatMap fun c => c.y.getD [])) = .ok v := by
  obtain ⟨loader, h1, hrun⟩ := bind_eq_ok.mp hrun
  unfold evalModel at hrun
  obtain ⟨acc, h2, hrun⟩ := bind_eq_ok.mp hrun
  obtain ⟨preds, h3, hrun⟩ := bind_eq_ok.mp hrun
  obtain ⟨w, h4, hrun⟩ := bind_eq_ok.mp hrun
  rw [pure_eq_ok, ok_inj, Prod.mk.injEq] at hrun
  obtain ⟨rfl, -⟩ := hrun
  obtain ⟨ps, e1, e2, e3, e4⟩ := eval_fold loader _ _ h2
  have hne : bss ≠ [] := by
    rintro rfl
    obtain rfl := ok_inj.mp h1
    obtain rfl := ok_inj.mp e1
    rw [e2] at h3
    cases h3
  have hpreds : preds = bss.flatten.map g := by
    have hi := infer_batches (collate := fun ds => fromComplexList ds mB) h hne hb hcs
    rw [h1, ok_bind] at hi
    unfold infer at hi
    rw [e1, ok_bind] at hi
    rw [e2] at h3
    exact ok_inj.mp (h3.symm.trans (by simpa using hi))
  rw [hpreds] at h4
  by_cases ht : task = .isomorphism
  · rw [if_pos ht]
    rw [e3 ht, if_pos rfl] at h4
    exact h4
  · rw [if_neg ht]
    obtain ⟨ts, e5, e6⟩ := e4 ht
    rw [List.nil_append] at e6
    rw [e6] at h4
    have htn : ts ≠ [] := by
      rintro rfl
      have := (mapE_eq_ok_iff.mp e5).length_eq
      have h5 := (mapE_eq_ok_iff.mp h1).length_eq
      rw [List.length_nil] at this
      exact hne (List.length_eq_zero_iff.mp (by omega))
    rw [if_neg htn, targets_batches h1 e5 hy] at h4
    exact h4

end

section
variable {𝕜 R L : Type} [Field 𝕜] [AddCommMonoid R] [Module 𝕜 R]

/-- A forward pass of one of the three networks with suitable layers. -/
inductive Network (𝕜 R L : Type) [Field 𝕜] [AddCommMonoid R] [Module 𝕜 R] : (Complex R L → Py (List R)) → Prop
  | sparse (net : SparseNet R (SparseLevel 𝕜 R)) (h : net.Fits) : Network 𝕜 R L (net.forward 𝕜 SparseLevel.forward)
  | pp (net : SparseNet R (PPLevel 𝕜 R)) (h : net.Fits) : Network 𝕜 R L (net.forward 𝕜 PPLevel.forward)
  | cin (net : CINNet R (CINLevel 𝕜 R)) (h : net.Fits) : Network 𝕜 R L (net.forward 𝕜 CINLevel.forward)

theorem Network.all {forward : Complex R L → Py (List R)} (hnet : Network 𝕜 R L forward) (mB : Nat) :
    ∃ g : Complex R L → R, ∀ cs : List (Complex R L), (∀ c ∈ cs, c.Ready) → (∀ c ∈ cs, 0 < c.cellsIn 0) →
      ∀ ds : List (Complex R L), ds ≠ [] → (∀ d ∈ ds, d ∈ cs) →
        (fromComplexList ds mB >>= forward) = .ok (ds.map g) := by
  cases hnet with
  | sparse net h =>
    exact ⟨_, fun cs hr h0 ds hne hs => SparseNet.forward_all (realises_sparse false) h hne
      (fun c hc => hr c (hs c hc)) (fun c hc => h0 c (hs c hc)) mB⟩
  | pp net h =>
    exact ⟨_, fun cs hr h0 ds hne hs => SparseNet.forward_all (realises_pp false) h hne
      (fun c hc => hr c (hs c hc)) (fun c hc => h0 c (hs c hc)) mB⟩
  | cin net h =>
    exact ⟨_, fun cs hr h0 ds hne hs => CINNet.forward_all realises_cin h hne
      (fun c hc => hr c (hs c hc)) (fun c hc => h0 c (hs c hc)) mB⟩

/-! ### C62 -/

/-- **C62** Inference: however the dataset is divided into batches, the predictions are those of the complexes passed
one at a time, in the order of the dataset. -/
theorem C62_inference_does_not_depend_on_batches (forward : Complex R L → Py (List R)) (hnet : Network 𝕜 R L forward)
    (cs : List (Complex R L)) (hne : cs ≠ []) (hr : ∀ c ∈ cs, c.Ready) (h0 : ∀ c ∈ cs, 0 < c.cellsIn 0) (mB : Nat) :
    ∃ preds, List.Forall₂ (fun c p => (fromComplexList [c] mB >>= forward) = .ok [p]) cs preds ∧
      ∀ bss : List (List (Complex R L)), (∀ ds ∈ bss, ds ≠ []) → bss.flatten = cs →
        (mapE (fun ds => fromComplexList ds mB) bss >>= infer forward) = .ok preds := by
  obtain ⟨g, hg⟩ := hnet.all mB
  have hg := hg cs hr h0
  refine ⟨cs.map g, ?_, ?_⟩
  · rw [List.forall₂_map_right_iff, List.forall₂_same]
    intro c hc
    exact hg [c] (by simp) (by simpa using hc)
  · rintro bss hb hfl
    have hbne : bss ≠ [] := by
      rintro rfl
      exact hne hfl.symm
    rw [infer_batches (collate := fun ds => fromComplexList ds mB) hg hbne hb (by rw [hfl]; exact fun _ h => h), hfl]

/-- **C62** Evaluation: two divisions of a labelled dataset into batches give the same score under every metric. -/
theorem C62_scores_do_not_depend_on_batches (forward : Complex R L → Py (List R)) (hnet : Network 𝕜 R L forward)
    (task : Task) (loss : List R → List L → Py ℚ) (metric : List R → Option (List L) → Py V)
    (cs : List (Complex R L)) (hr : ∀ c ∈ cs, c.Ready) (h0 : ∀ c ∈ cs, 0 < c.cellsIn 0)
    (hy : ∀ c ∈ cs, c.y.isSome) (mB : Nat) (bss bss' : List (List (Complex R L))) (hb : ∀ ds ∈ bss, ds ≠ [])
    (hb' : ∀ ds ∈ bss', ds ≠ []) (hfl : bss.flatten = cs) (hfl' : bss'.flatten = cs) (v v' : V) (l l' : Option ℚ)
    (hrun : (mapE (fun ds => fromComplexList ds mB) bss >>= evalModel task forward Complex.targets loss metric) =
      .ok (v, l))
    (hrun' : (mapE (fun ds => fromComplexList ds mB) bss' >>= evalModel task forward Complex.targets loss metric) =
      .ok (v', l')) : v = v' := by
  obtain ⟨g, hg⟩ := hnet.all mB
  have hg := hg cs hr h0
  have e1 := eval_batches hg hb (by rw [hfl]; exact fun _ h => h) (by rw [hfl]; exact hy) hrun
  have e2 := eval_batches hg hb' (by rw [hfl']; exact fun _ h => h) (by rw [hfl']; exact hy) hrun'
  rw [hfl] at e1
  rw [hfl'] at e2
  exact ok_inj.mp (e1.symm.trans e2)

end

/-! ### The order of the dataset -/

theorem argBest_error {better : ℚ → ℚ → Bool} {row : List (Option ℚ)} {e : PyErr} (h : argBest better row = .error e) :
    e = .value := by
  cases row with
  | nil => exact (Except.error.inj h).symm
  | cons a row => cases a <;> cases h

theorem mapE_classes (better : ℚ → ℚ → Bool) (rows : List (List (Option ℚ))) :
    mapE (argBest better) rows = if [] ∈ rows then .error .value
      else .ok (rows.map fun row => ((argBest better row).toOption).getD 0) := by
  induction rows with
  | nil => rfl
  | cons row rows ih =>
    rw [mapE_cons, ih]
    cases row with
    | nil => simp [argBest]
    | cons a row =>
      have : ∃ n, argBest better (a :: row) = .ok n := by cases a <;> exact ⟨_, rfl⟩
      obtain ⟨n, hn⟩ := this
      rw [hn, ok_bind]
      by_cases h : [] ∈ rows
      · rw [if_pos h, if_pos (by simp [h])]; rfl
      · rw [if_neg h, if_neg (by simp [h])]
        simp [hn, Except.toOption]

/-- **C62** The accuracy does not depend on the order of the dataset. -/
theorem C62_accuracy_does_not_depend_on_order (ds ds' : List (List (Option ℚ) × Nat)) (h : ds.Perm ds') :
    accuracyMetric (ds.map Prod.fst) (some (ds.map Prod.snd)) =
      accuracyMetric (ds'.map Prod.fst) (some (ds'.map Prod.snd)) := by
  unfold accuracyMetric
  rw [mapE_classes, mapE_classes]
  have hm : [] ∈ ds.map Prod.fst ↔ [] ∈ ds'.map Prod.fst := (h.map _).mem_iff
  by_cases h1 : [] ∈ ds.map Prod.fst
  · rw [if_pos h1, if_pos (hm.mp h1)]
    rfl
  · rw [if_neg h1, if_neg (mt hm.mpr h1), ok_bind, ok_bind]
    show accuracyScore _ _ = accuracyScore _ _
    have hzip : ∀ l : List (List (Option ℚ) × Nat), (l.map Prod.snd).zip ((l.map Prod.fst).map fun row =>
        ((argBest (fun a b => decide (b < a)) row).toOption).getD 0) =
        l.map fun p => (p.2, ((argBest (fun a b => decide (b < a)) p.1).toOption).getD 0) := by
      intro l
      induction l with
      | nil => rfl
      | cons a l ih => simp only [List.map_cons, List.zip_cons_cons, ih]
    have hne : ds = [] ↔ ds' = [] := by
      rw [← List.length_eq_zero_iff, ← List.length_eq_zero_iff, h.length_eq]
    unfold accuracyScore
    rw [hzip, hzip, ((h.map _).filter _).length_eq]
    simp only [List.length_map, h.length_eq, ne_eq, List.map_eq_nil_iff, hne]

/-- The place of the first of the largest values of a row of numbers. -/
def FirstLargest (row : List (Option ℚ)) (i : Nat) : Prop :=
  ∃ v : ℚ, row[i]? = some (some v) ∧ ∀ (j : Nat) (w : ℚ), row[j]? = some (some w) → w ≤ v ∧ (j < i → w < v)

theorem FirstLargest.unique {row : List (Option ℚ)} {i j : Nat} (hi : FirstLargest row i) (hj : FirstLargest row j) :
    i = j := by
  obtain ⟨v, h1, h2⟩ := hi
  obtain ⟨w, h3, h4⟩ := hj
  rcases lt_trichotomy i j with h | h | h
  · exact absurd ((h4 i v h1).2 h) (not_lt.mpr (h2 j w h3).1)
  · exact h
  · exact absurd ((h2 j w h3).2 h) (not_lt.mpr (h4 i v h1).1)

theorem argmax_first {row : List (Option ℚ)} (hne : row ≠ []) (hs : ∀ v ∈ row, v.isSome) (i : Nat) :
    argBest (fun a b => decide (b < a)) row = .ok i ↔ FirstLargest row i := by
  obtain ⟨b, v, h1, h2, h3, h4⟩ := argBest_spec comparison_max row hne hs
  have hb : FirstLargest row b :=
    ⟨v, h2, fun j w hw => ⟨by simpa using h3 j w hw, fun hj => by simpa using h4 j w hj hw⟩⟩
  rw [h1, ok_inj]
  exact ⟨fun h => h ▸ hb, fun h => hb.unique h⟩

theorem zip_snd_fst {A B C : Type} (f : A → C) (l : List (A × B)) :
    (l.map Prod.snd).zip ((l.map Prod.fst).map f) = l.map fun p => (p.2, f p.1) := by
  induction l with
  | nil => rfl
  | cons a l ih => simp only [List.map_cons, List.zip_cons_cons, ih]

/-- **C62** The accuracy is the share of the complexes that are predicted right: if the complexes are divided into
those whose label is the first place of the largest number predicted and the others, it is the size of the first part
divided by the number of complexes. So it is between 0 and 1, and 1 exactly if there are no others. -/
theorem C62_accuracy_is_the_share (ds right wrong : List (List (Option ℚ) × Nat)) (hne : ds ≠ [])
    (hrow : ∀ p ∈ ds, p.1 ≠ [] ∧ ∀ v ∈ p.1, v.isSome) (hds : ds.Perm (right ++ wrong))
    (hright : ∀ p ∈ right, FirstLargest p.1 p.2) (hwrong : ∀ p ∈ wrong, ¬ FirstLargest p.1 p.2) :
    ∃ acc : ℚ, accuracyMetric (ds.map Prod.fst) (some (ds.map Prod.snd)) = .ok acc ∧
      acc * ((right.length : ℚ) + (wrong.length : ℚ)) = (right.length : ℚ) ∧ 0 ≤ acc ∧ acc ≤ 1 ∧
      (acc = 1 ↔ wrong = []) := by
  rw [C62_accuracy_does_not_depend_on_order ds _ hds]
  have hrow' : ∀ p ∈ right ++ wrong, p.1 ≠ [] ∧ ∀ v ∈ p.1, v.isSome := fun p hp => hrow p (hds.mem_iff.mpr hp)
  have hne' : right ++ wrong ≠ [] := fun h => hne (by rw [h] at hds; exact hds.eq_nil)
  have hnil : ¬ [] ∈ (right ++ wrong).map Prod.fst := by
    intro h
    obtain ⟨p, hp, h⟩ := List.mem_map.mp h
    exact (hrow' p hp).1 h
  have key : ∀ p ∈ right ++ wrong, p.2 = ((argBest (fun a b => decide (b < a)) p.1).toOption).getD 0 ↔
      FirstLargest p.1 p.2 := by
    intro p hp
    obtain ⟨h1, h2⟩ := hrow' p hp
    rw [← argmax_first h1 h2]
    obtain ⟨b, v, h3, -⟩ := argBest_spec comparison_max p.1 h1 h2
    rw [h3, ok_inj]
    exact eq_comm
  have hlen : 0 < (right.length : ℚ) + (wrong.length : ℚ) := by
    have : 0 < (right ++ wrong).length := List.length_pos_of_ne_nil hne'
    rw [List.length_append] at this
    exact_mod_cast this
  refine ⟨(right.length : ℚ) / ((right.length : ℚ) + (wrong.length : ℚ)), ?_, div_mul_cancel₀ _ hlen.ne', by positivity,
    ?_, ?_⟩
  · unfold accuracyMetric
    rw [mapE_classes, if_neg hnil, ok_bind]
    show accuracyScore _ _ = _
    unfold accuracyScore
    rw [if_pos ⟨by simp, by simpa using hne'⟩, zip_snd_fst, List.map_append, List.filter_append,
      List.filter_eq_self.mpr, List.filter_eq_nil_iff.mpr]
    · simp
    · intro q hq
      obtain ⟨p, hp, rfl⟩ := List.mem_map.mp hq
      simpa using mt (key p (List.mem_append_right _ hp)).mp (hwrong p hp)
    · intro q hq
      obtain ⟨p, hp, rfl⟩ := List.mem_map.mp hq
      simpa using (key p (List.mem_append_left _ hp)).mpr (hright p hp)
  · rw [div_le_one hlen]
    have : (0 : ℚ) ≤ wrong.length := by positivity
    linarith
  · rw [div_eq_one_iff_eq hlen.ne']
    constructor
    · intro h
      have : (wrong.length : ℚ) = 0 := by linarith
      exact List.length_eq_zero_iff.mp (by exact_mod_cast this)
    · rintro rfl
      simp

/-- Three complexes, two of which are predicted right. -/
example : ∃ acc : ℚ, accuracyMetric [[some 1, some 3, some 3], [some 2, some 0, some 1], [some 0, some 0, some 5]]
    (some [1, 2, 2]) = .ok acc ∧ acc * 3 = 2 := by
  obtain ⟨acc, h1, h2, -⟩ := C62_accuracy_is_the_share
    [([some 1, some 3, some 3], 1), ([some 2, some 0, some 1], 2), ([some 0, some 0, some 5], 2)]
    [([some 1, some 3, some 3], 1), ([some 0, some 0, some 5], 2)] [([some 2, some 0, some 1], 2)] (by simp) (by simp)
    (by decide) (by
      intro p hp
      rw [← argmax_first (by rcases List.mem_pair.mp hp with rfl | rfl <;> simp)
        (by rcases List.mem_pair.mp hp with rfl | rfl <;> simp)]
      rcases List.mem_pair.mp hp with rfl | rfl <;> decide +kernel) (by
      intro p hp
      obtain rfl := List.mem_singleton.mp hp
      rw [← argmax_first (by simp) (by simp)]
      decide +kernel)
  refine ⟨acc, h1, ?_⟩
  simp only [List.length_cons, List.length_nil] at h2
  norm_num at h2
  exact h2

/-- **C62** The mean absolute error is the mean of the distances between predictions and labels: it is not negative,
and 0 exactly if all predictions are right. -/
theorem C62_error_is_the_mean (ds : List (ℚ × ℚ)) (hne : ds ≠ []) :
    ∃ err : ℚ, maeMetric (ds.map Prod.fst) (some (ds.map Prod.snd)) = .ok err ∧
      err * (ds.length : ℚ) = (ds.map fun p => |p.1 - p.2|).sum ∧ 0 ≤ err ∧ (err = 0 ↔ ∀ p ∈ ds, p.1 = p.2) := by
  have hlen : 0 < (ds.length : ℚ) := by exact_mod_cast List.length_pos_of_ne_nil hne
  have hnn : ∀ v ∈ ds.map fun p : ℚ × ℚ => |p.1 - p.2|, (0 : ℚ) ≤ v := by
    intro v hv
    obtain ⟨p, -, rfl⟩ := List.mem_map.mp hv
    exact abs_nonneg _
  refine ⟨(ds.map fun p => |p.1 - p.2|).sum / (ds.length : ℚ), ?_, div_mul_cancel₀ _ hlen.ne',
    div_nonneg (List.sum_nonneg hnn) hlen.le, ?_⟩
  · unfold maeMetric absoluteError
    dsimp only
    rw [if_pos ⟨by simp, by simpa using hne⟩]
    have : ((ds.map Prod.snd).zip (ds.map Prod.fst)).map (fun p => |p.1 - p.2|) = ds.map fun p => |p.1 - p.2| := by
      clear hne hlen hnn
      induction ds with
      | nil => rfl
      | cons a l ih => simp only [List.map_cons, List.zip_cons_cons, ih, abs_sub_comm]
    rw [this, List.length_map]
  · rw [div_eq_zero_iff, or_iff_left hlen.ne']
    constructor
    · intro h p hp
      have h0 := List.all_zero_of_le_zero_le_of_sum_eq_zero hnn h (List.mem_map_of_mem (f := fun p : ℚ × ℚ => |p.1 - p.2|) hp)
      exact sub_eq_zero.mp (abs_eq_zero.mp h0)
    · intro h
      apply List.sum_eq_zero
      intro v hv
      obtain ⟨p, hp, rfl⟩ := List.mem_map.mp hv
      rw [h p hp, sub_self, abs_zero]

example : ∃ err : ℚ, maeMetric [1, 5, 2] (some [2, 5, 0]) = .ok err ∧ err * 3 = 3 := by
  obtain ⟨err, h1, h2, -⟩ := C62_error_is_the_mean [(1, 2), (5, 5), (2, 0)] (by simp)
  refine ⟨err, h1, ?_⟩
  simp only [List.length_cons, List.length_nil] at h2
  norm_num [abs_of_pos] at h2
  rw [h2, one_mul]

/-- **C62** The mean absolute error does not depend on the order of the dataset. -/
theorem C62_error_does_not_depend_on_order (ds ds' : List (ℚ × ℚ)) (h : ds.Perm ds') :
    maeMetric (ds.map Prod.fst) (some (ds.map Prod.snd)) = maeMetric (ds'.map Prod.fst) (some (ds'.map Prod.snd)) := by
  have hzip : ∀ l : List (ℚ × ℚ), ((l.map Prod.snd).zip (l.map Prod.fst)).map (fun p => |p.1 - p.2|) =
      l.map fun p => |p.2 - p.1| := by
    intro l
    induction l with
    | nil => rfl
    | cons a l ih => simp only [List.map_cons, List.zip_cons_cons, ih]
  have hne : ds = [] ↔ ds' = [] := by
    rw [← List.length_eq_zero_iff, ← List.length_eq_zero_iff, h.length_eq]
  show absoluteError _ _ = absoluteError _ _
  unfold absoluteError
  rw [hzip, hzip, (h.map _).sum_eq]
  simp only [List.length_map, h.length_eq, ne_eq, List.map_eq_nil_iff, hne]

/-- **C62** The accuracy of a network on a dataset, one label per complex, depends neither on the order of the dataset
nor on its division into batches. `scores` reads the class scores off a row of the output. -/
theorem C62_accuracy_of_a_network {𝕜 R : Type} [Field 𝕜] [AddCommMonoid R] [Module 𝕜 R]
    (forward : Complex R Nat → Py (List R)) (hnet : Network 𝕜 R Nat forward) (loss : List R → List Nat → Py ℚ)
    (scores : R → List (Option ℚ)) (mB : Nat) (bss bss' : List (List (Complex R Nat)))
    (hperm : bss.flatten.Perm bss'.flatten) (hr : ∀ c ∈ bss.flatten, c.Ready)
    (h0 : ∀ c ∈ bss.flatten, 0 < c.cellsIn 0) (hy : ∀ c ∈ bss.flatten, ∃ y, c.y = some [y])
    (hb : ∀ ds ∈ bss, ds ≠ []) (hb' : ∀ ds ∈ bss', ds ≠ []) (v v' : ℚ) (l l' : Option ℚ)
    (hrun : (mapE (fun ds => fromComplexList ds mB) bss >>= evalModel .classification forward Complex.targets loss
      fun preds => accuracyMetric (preds.map scores)) = .ok (v, l))
    (hrun' : (mapE (fun ds => fromComplexList ds mB) bss' >>= evalModel .classification forward Complex.targets loss
      fun preds => accuracyMetric (preds.map scores)) = .ok (v', l')) : v = v' := by
  obtain ⟨g, hg⟩ := hnet.all mB
  have hg := hg bss.flatten hr h0
  have hsome : ∀ c ∈ bss.flatten, c.y.isSome := fun c hc => by
    obtain ⟨y, h⟩ := hy c hc
    rw [h]; rfl
  have e1 := eval_batches hg hb (fun _ h => h) hsome hrun
  have e2 := eval_batches hg hb' (fun d h => hperm.mem_iff.mpr h) (fun d h => hsome d (hperm.mem_iff.mpr h)) hrun'
  rw [if_neg (by simp)] at e1 e2
  have hlab : ∀ cs : List (Complex R Nat), (∀ c ∈ cs, ∃ y, c.y = some [y]) →
      (cs.flatMap fun c => c.y.getD []) = cs.map fun c => (c.y.getD []).headD 0 := by
    intro cs
    induction cs with
    | nil => exact fun _ => rfl
    | cons c cs ih =>
      intro h
      obtain ⟨y, hc⟩ := h c (by simp)
      rw [List.flatMap_cons, List.map_cons, ih fun c hc => h c (by simp [hc]), hc]
      rfl
  rw [hlab _ hy] at e1
  rw [hlab _ fun c hc => hy c (hperm.mem_iff.mpr hc)] at e2
  have hp := C62_accuracy_does_not_depend_on_order _ _
    (hperm.map fun c => (scores (g c), (c.y.getD []).headD 0))
  simp only [List.map_map, Function.comp_def] at hp e1 e2
  rw [hp] at e1
  exact ok_inj.mp (e1.symm.trans e2)

section Examples
open Fixtures

/-- Three complexes in two divisions into batches: the same predictions. -/
example : Network ℚ ℚ Nat (sparseNetQ.forward ℚ SparseLevel.forward) ∧
    (∀ c ∈ [segQ, dotsQ, houseQ], 0 < c.cellsIn 0) ∧ (∀ c ∈ [segQ, houseQ], c.y.isSome) ∧
    (mapE (fun ds => fromComplexList ds 2) [[segQ, dotsQ], [houseQ]] >>=
      infer (sparseNetQ.forward ℚ SparseLevel.forward)) =
    (mapE (fun ds => fromComplexList ds 2) [[segQ], [dotsQ, houseQ]] >>=
      infer (sparseNetQ.forward ℚ SparseLevel.forward)) := by
  refine ⟨.sparse _ sparseNetQ_fits, by decide, by decide, by decide +kernel⟩

/-- The accuracy of two complexes, together and one at a time in the other order. -/
example : ((mapE (fun ds => fromComplexList ds 2) [[segQ, houseQ]] >>=
      evalModel .classification (sparseNetQ.forward ℚ SparseLevel.forward) Complex.targets (fun _ _ => .ok 1)
        fun preds => accuracyMetric (preds.map fun x => [some x, some 20])).map Prod.fst) =
    ((mapE (fun ds => fromComplexList ds 2) [[houseQ], [segQ]] >>=
      evalModel .classification (sparseNetQ.forward ℚ SparseLevel.forward) Complex.targets (fun _ _ => .ok 1)
        fun preds => accuracyMetric (preds.map fun x => [some x, some 20])).map Prod.fst) := by
  decide +kernel

end Examples

/-- **C62** The mean loss, in contrast, is a mean of the means of batches of different sizes: it depends on the
division. Here batches are lists of pairs of a prediction and a target, with the mean absolute error as criterion. -/
theorem C62_mean_loss_depends_on_batches :
    ∃ (bss bss' : List (List (ℚ × ℚ))), bss.flatten = bss'.flatten ∧ (∀ ds ∈ bss, ds ≠ []) ∧ (∀ ds ∈ bss', ds ≠ []) ∧
      evalModel .regression (fun ds => .ok (ds.map Prod.fst)) (fun ds => .ok (ds.map Prod.snd))
        (fun p t => maeMetric p (some t)) maeMetric bss = .ok (1, some (3 / 2)) ∧
      evalModel .regression (fun ds => .ok (ds.map Prod.fst)) (fun ds => .ok (ds.map Prod.snd))
        (fun p t => maeMetric p (some t)) maeMetric bss' = .ok (1, some (3 / 4)) :=
  ⟨[[(0, 0), (1, 1)], [(5, 2)]], [[(0, 0)], [(1, 1), (5, 2)]], by decide +kernel, by decide +kernel,
    by decide +kernel, by decide +kernel, by decide +kernel⟩

end Verif
