import Verif.Spec.Ranking
import Mathlib.Algebra.BigOperators.Group.List.Basic
import Mathlib.Algebra.Order.BigOperators.Group.List
import Mathlib.Tactic.Ring
import Mathlib.Tactic.FieldSimp
import Mathlib.Tactic.Linarith

/-!
# Lemmas for average precision and ROC-AUC
-/

namespace Verif

variable {α : Type} [LinearOrder α]

/-- The positives and the negatives with a score of at least `s`. -/
def atLeast (l : List (α × Bool)) (s : α) : Nat × Nat :=
  (l.countP fun a => decide (s ≤ a.1) && a.2, l.countP fun a => decide (s ≤ a.1) && !a.2)

/-- The positives and the negatives with a score above `s`. -/
def above (l : List (α × Bool)) (s : α) : Nat × Nat :=
  (l.countP fun a => decide (s < a.1) && a.2, l.countP fun a => decide (s < a.1) && !a.2)

/-- The last score of each run. -/
def runs : List (α × Bool) → List α
  | [] => []
  | [a] => [a.1]
  | a :: b :: l => if b.1 = a.1 then runs (b :: l) else a.1 :: runs (b :: l)

/-- From the largest score to the smallest. -/
def Descending (l : List (α × Bool)) : Prop := l.Pairwise fun a b => b.1 ≤ a.1

theorem sortDesc_descending (l : List (α × Bool)) : Descending (sortDesc l) := by
  haveI : Std.Total fun a b : α × Bool => b.1 ≤ a.1 := ⟨fun a b => le_total b.1 a.1⟩
  haveI : IsTrans (α × Bool) fun a b => b.1 ≤ a.1 := ⟨fun a b c h h' => le_trans h' h⟩
  exact List.pairwise_insertionSort _ l

theorem sortDesc_perm (l : List (α × Bool)) : (sortDesc l).Perm l := List.perm_insertionSort _ l

theorem countP_split {β : Type} (p : β → Bool) (pre : List β) (a : β) (post : List β)
    (hpre : ∀ x ∈ pre, p x = true) (hpost : ∀ x ∈ post, p x = false) (q : β → Bool) :
    (pre ++ a :: post).countP (fun x => p x && q x) = pre.countP q + (p a && q a).toNat := by
  rw [List.countP_append, List.countP_cons]
  have h1 : pre.countP (fun x => p x && q x) = pre.countP q :=
    List.countP_congr fun x hx => by simp [hpre x hx]
  have h2 : post.countP (fun x => p x && q x) = 0 := by
    rw [List.countP_eq_zero]
    intro x hx
    simp [hpost x hx]
  rw [h1, h2]
  cases p a && q a <;> simp

theorem clfCurve_runs : ∀ (l pre : List (α × Bool)) (tp fp : Nat), Descending (pre ++ l) →
    tp = pre.countP (fun a => a.2) → fp = pre.countP (fun a => !a.2) →
    clfCurve tp fp l = (runs l).map (atLeast (pre ++ l)) := by
  intro l
  induction l with
  | nil => intros; rfl
  | cons a l ih =>
    intro pre tp fp hd htp hfp
    have hpre : ∀ x ∈ pre, a.1 ≤ x.1 := fun x hx => (List.pairwise_append.mp hd).2.2 x hx a (by simp)
    have htp' : tp + a.2.toNat = (pre ++ [a]).countP (fun a => a.2) := by
      rw [List.countP_append, htp]
      cases ha : a.2 <;> simp [ha]
    have hfp' : fp + (!a.2).toNat = (pre ++ [a]).countP (fun a => !a.2) := by
      rw [List.countP_append, hfp]
      cases ha : a.2 <;> simp [ha]
    have hemit : (∀ x ∈ l, x.1 < a.1) → (tp + a.2.toNat, fp + (!a.2).toNat) = atLeast (pre ++ a :: l) a.1 := by
      intro h
      unfold atLeast
      rw [countP_split (fun x => decide (a.1 ≤ x.1)) pre a l (by simpa using hpre) (by simpa using h),
        countP_split (fun x => decide (a.1 ≤ x.1)) pre a l (by simpa using hpre) (by simpa using h), ← htp, ← hfp]
      simp
    cases l with
    | nil =>
      simp only [clfCurve, runs, List.map_cons, List.map_nil]
      rw [hemit (by simp)]
    | cons b l =>
      have hd' : Descending ((pre ++ [a]) ++ b :: l) := by simpa [Descending] using hd
      have hrec := ih (pre ++ [a]) _ _ hd' htp' hfp'
      rw [List.append_assoc, List.singleton_append] at hrec
      simp only [clfCurve, runs]
      by_cases h : b.1 = a.1
      · rw [if_pos h, if_pos h, hrec]
      · rw [if_neg h, if_neg h, List.map_cons, hrec, hemit]
        have hal := (List.pairwise_append.mp hd).2.1
        rw [List.pairwise_cons, List.pairwise_cons] at hal
        have hba : b.1 < a.1 := lt_of_le_of_ne (hal.1 b (by simp)) h
        intro x hx
        rcases List.mem_cons.mp hx with rfl | hx
        · exact hba
        · exact lt_of_le_of_lt (hal.2.1 x hx) hba

/-- A sum over the steps of a curve. -/
def curveSum (G : Nat × Nat → Nat × Nat → ℚ) : Nat × Nat → List (Nat × Nat) → ℚ
  | _, [] => 0
  | p, q :: qs => G p q + curveSum G q qs

theorem curveSum_runs (G : Nat × Nat → Nat × Nat → ℚ) : ∀ (l pre : List (α × Bool)) (a : α × Bool),
    Descending (pre ++ a :: l) → (curveSum G (above (pre ++ a :: l) a.1)
      ((runs (a :: l)).map (atLeast (pre ++ a :: l)))) =
        ((runs (a :: l)).map fun s => G (above (pre ++ a :: l) s) (atLeast (pre ++ a :: l) s)).sum := by
  intro l
  induction l with
  | nil => intro pre a _; simp [runs, curveSum]
  | cons b l ih =>
    intro pre a hd
    have hd' : Descending ((pre ++ [a]) ++ b :: l) := by simpa [Descending] using hd
    have hrec := ih (pre ++ [a]) b hd'
    rw [List.append_assoc, List.singleton_append] at hrec
    simp only [runs]
    by_cases h : b.1 = a.1
    · rw [if_pos h, ← h]
      exact hrec
    · rw [if_neg h, List.map_cons, List.map_cons, List.sum_cons, curveSum, ← hrec]
      congr 2
      have hal := (List.pairwise_append.mp hd).2.1
      have hpre : ∀ x ∈ pre, a.1 ≤ x.1 := fun x hx => (List.pairwise_append.mp hd).2.2 x hx a (by simp)
      rw [List.pairwise_cons, List.pairwise_cons] at hal
      have hba : b.1 < a.1 := lt_of_le_of_ne (hal.1 b (by simp)) h
      have hiff : ∀ x ∈ pre ++ a :: b :: l, (a.1 ≤ x.1 ↔ b.1 < x.1) := by
        intro x hx
        simp only [List.mem_append, List.mem_cons] at hx
        rcases hx with hx | rfl | rfl | hx
        · exact ⟨fun h => lt_of_lt_of_le hba h, fun _ => hpre x hx⟩
        · exact ⟨fun _ => hba, fun _ => le_refl _⟩
        · exact ⟨fun h => absurd hba (not_lt.mpr h), fun h => absurd h (lt_irrefl _)⟩
        · have := hal.2.1 x hx
          exact ⟨fun h => absurd hba (not_lt.mpr (le_trans h this)), fun h => absurd h (not_lt.mpr this)⟩
      unfold atLeast above
      rw [Prod.mk.injEq]
      constructor <;>
      · apply List.countP_congr
        intro x hx
        simp only [Bool.and_eq_true, decide_eq_true_eq, hiff x hx]

theorem above_max {l : List (α × Bool)} {a : α × Bool} (hd : Descending (a :: l)) : above (a :: l) a.1 = (0, 0) := by
  have : ∀ x ∈ a :: l, ¬ a.1 < x.1 := by
    intro x hx
    rcases List.mem_cons.mp hx with rfl | hx
    · exact lt_irrefl _
    · exact not_lt.mpr ((List.pairwise_cons.mp hd).1 x hx)
  unfold above
  rw [Prod.mk.injEq, List.countP_eq_zero, List.countP_eq_zero]
  constructor <;>
  · intro x hx
    simp [this x hx]

theorem curveSum_clfCurve (G : Nat × Nat → Nat × Nat → ℚ) {l : List (α × Bool)} (hd : Descending l) :
    curveSum G (0, 0) (clfCurve 0 0 l) = ((runs l).map fun s => G (above l s) (atLeast l s)).sum := by
  cases l with
  | nil => rfl
  | cons a l =>
    have h1 := clfCurve_runs (a :: l) [] 0 0 hd rfl rfl
    have h2 := curveSum_runs G l [] a hd
    rw [List.nil_append] at h1 h2
    rw [above_max hd] at h2
    rw [h1, h2]

theorem mem_runs : ∀ {l : List (α × Bool)} {s : α}, s ∈ runs l ↔ ∃ a ∈ l, a.1 = s
  | [], s => by simp [runs]
  | [a], s => by simp [runs, eq_comm]
  | a :: b :: l, s => by
    rw [runs]
    split
    · rename_i h
      rw [mem_runs]
      constructor
      · rintro ⟨x, hx, rfl⟩
        exact ⟨x, by simp [List.mem_cons.mp hx], rfl⟩
      · rintro ⟨x, hx, rfl⟩
        rcases List.mem_cons.mp hx with rfl | hx
        · exact ⟨b, by simp, h⟩
        · exact ⟨x, hx, rfl⟩
    · rw [List.mem_cons, mem_runs]
      constructor
      · rintro (rfl | ⟨x, hx, rfl⟩)
        · exact ⟨a, by simp, rfl⟩
        · exact ⟨x, by simp [List.mem_cons.mp hx], rfl⟩
      · rintro ⟨x, hx, rfl⟩
        rcases List.mem_cons.mp hx with rfl | hx
        · exact .inl rfl
        · exact .inr ⟨x, hx, rfl⟩

theorem runs_nodup : ∀ {l : List (α × Bool)}, Descending l → (runs l).Nodup
  | [], _ => by simp [runs]
  | [a], _ => by simp [runs]
  | a :: b :: l, hd => by
    have hd' : Descending (b :: l) := (List.pairwise_cons.mp hd).2
    rw [runs]
    split
    · exact runs_nodup hd'
    · rename_i h
      rw [List.nodup_cons]
      refine ⟨?_, runs_nodup hd'⟩
      rw [mem_runs]
      rintro ⟨x, hx, hxa⟩
      have hba : b.1 < a.1 := lt_of_le_of_ne ((List.pairwise_cons.mp hd).1 b (by simp)) h
      rcases List.mem_cons.mp hx with rfl | hx
      · exact h hxa
      · have := (List.pairwise_cons.mp hd').1 x hx
        rw [hxa] at this
        exact absurd hba (not_lt.mpr this)

theorem sum_single_run {R : List α} (hn : R.Nodup) {t : α} (ht : t ∈ R) (v : ℚ) :
    (R.map fun s => if t = s then v else 0).sum = v := by
  induction R with
  | nil => simp at ht
  | cons s R ih =>
    rw [List.nodup_cons] at hn
    rw [List.map_cons, List.sum_cons]
    rcases List.mem_cons.mp ht with rfl | ht'
    · rw [if_pos rfl]
      have : (R.map fun s => if t = s then v else 0) = R.map fun _ => 0 :=
        List.map_congr_left fun s hs => if_neg (by rintro rfl; exact hn.1 hs)
      rw [this]
      simp
    · rw [if_neg (by rintro rfl; exact hn.1 ht'), zero_add, ih hn.2 ht']

/-- Summing run by run is summing over everything. -/
theorem sum_by_runs {R : List α} (hn : R.Nodup) (f : α × Bool → ℚ) : ∀ {l : List (α × Bool)},
    (∀ a ∈ l, a.1 ∈ R) → (R.map fun s => (l.map fun a => if a.1 = s then f a else 0).sum).sum = (l.map f).sum := by
  intro l
  induction l with
  | nil => intro _; simp
  | cons a l ih =>
    intro h
    simp only [List.map_cons, List.sum_cons, List.sum_map_add]
    rw [ih fun x hx => h x (by simp [hx]), sum_single_run hn (h a (by simp))]

theorem countP_eq_sum {β : Type} (p : β → Bool) (l : List β) :
    ((l.countP p : Nat) : ℚ) = (l.map fun a => if p a = true then (1 : ℚ) else 0).sum := by
  induction l with
  | nil => simp
  | cons a l ih =>
    rw [List.countP_cons, List.map_cons, List.sum_cons, ← ih]
    split <;> push_cast <;> ring

theorem step_count (l : List (α × Bool)) (s : α) (q : α × Bool → Bool) :
    ((l.countP fun a => decide (s ≤ a.1) && q a : Nat) : ℚ) - ((l.countP fun a => decide (s < a.1) && q a : Nat) : ℚ) =
      (l.map fun a => if a.1 = s then (if q a = true then (1 : ℚ) else 0) else 0).sum := by
  induction l with
  | nil => simp
  | cons a l ih =>
    rw [List.map_cons, List.sum_cons, ← ih, List.countP_cons, List.countP_cons]
    rcases lt_trichotomy s a.1 with h | h | h
    · simp [h, h.le, h.ne']
    · subst h
      simp
      split <;> push_cast <;> ring
    · simp [not_le.mpr h, not_lt.mpr h.le, h.ne]

theorem sum_map_mul_right' {β : Type} (l : List β) (f : β → ℚ) (c : ℚ) :
    (l.map f).sum * c = (l.map fun a => f a * c).sum := by
  induction l with
  | nil => simp
  | cons a l ih => rw [List.map_cons, List.sum_cons, List.map_cons, List.sum_cons, add_mul, ih]

theorem sum_map_filter' {β : Type} (l : List β) (p : β → Bool) (f : β → ℚ) :
    ((l.filter p).map f).sum = (l.map fun a => if p a = true then f a else 0).sum := by
  induction l with
  | nil => simp
  | cons a l ih =>
    rw [List.filter_cons, List.map_cons, List.sum_cons, ← ih]
    split
    · rw [List.map_cons, List.sum_cons]
    · rw [zero_add]

theorem getLast_clfCurve : ∀ (l : List (α × Bool)) (tp fp : Nat), l ≠ [] → (clfCurve tp fp l).getLast? =
    some (tp + l.countP (fun a => a.2), fp + l.countP (fun a => !a.2)) := by
  intro l
  induction l with
  | nil => intro _ _ h; exact absurd rfl h
  | cons a l ih =>
    intro tp fp _
    have h1 : ∀ t : Nat, t + (a :: l).countP (fun a => a.2) = t + a.2.toNat + l.countP (fun a => a.2) := by
      intro t
      rw [List.countP_cons]
      cases a.2 <;> simp; omega
    have h2 : ∀ t : Nat, t + (a :: l).countP (fun a => !a.2) = t + (!a.2).toNat + l.countP (fun a => !a.2) := by
      intro t
      rw [List.countP_cons]
      cases a.2 <;> simp; omega
    rw [h1, h2]
    cases l with
    | nil => simp [clfCurve]
    | cons b l =>
      rw [clfCurve]
      split
      · exact ih _ _ (by simp)
      · rw [List.getLast?_cons, ih _ _ (by simp)]
        rfl

theorem last_clfCurve (l : List (α × Bool)) : (clfCurve 0 0 l).getLast?.getD (0, 0) =
    (l.countP (fun a => a.2), l.countP (fun a => !a.2)) := by
  by_cases h : l = []
  · subst h; rfl
  · rw [getLast_clfCurve l 0 0 h]
    simp

theorem diff_curve (r q : Nat × Nat → ℚ) : ∀ (curve : List (Nat × Nat)) (p : Nat × Nat),
    (List.zipWith (fun d p => d * p) (diffFrom (r p) (curve.map r)) (curve.map q)).sum =
      curveSum (fun p p' => (r p' - r p) * q p') p curve := by
  intro curve
  induction curve with
  | nil => intro _; rfl
  | cons p' curve ih =>
    intro p
    rw [curveSum, ← ih p']
    simp [diffFrom]

theorem diff_curve2 (r t : Nat × Nat → ℚ) : ∀ (curve : List (Nat × Nat)) (p : Nat × Nat),
    (List.zipWith (fun d t => d * t) (diffFrom (r p) (curve.map r))
      (List.zipWith (fun t t0 => (t + t0) / 2) (curve.map t) (t p :: curve.map t))).sum =
      curveSum (fun p p' => (r p' - r p) * ((t p' + t p) / 2)) p curve := by
  intro curve
  induction curve with
  | nil => intro _; rfl
  | cons p' curve ih =>
    intro p
    rw [curveSum, ← ih p']
    simp [diffFrom]

theorem labelCount_true (l : List (α × Bool)) : labelCount true l = l.countP fun a => a.2 := by
  rw [labelCount, List.countP_eq_length_filter]
  congr 2
  funext a
  cases a.2 <;> rfl

theorem labelCount_false (l : List (α × Bool)) : labelCount false l = l.countP fun a => !a.2 := by
  rw [labelCount, List.countP_eq_length_filter]
  congr 2
  funext a
  cases a.2 <;> rfl

theorem precisionAt_eq (l : List (α × Bool)) (s : α) :
    precisionAt l s = ((atLeast l s).1 : ℚ) / (((atLeast l s).1 + (atLeast l s).2 : Nat) : ℚ) := by
  unfold precisionAt atLeast
  rw [← List.countP_eq_length_filter, ← List.countP_eq_length_filter]
  congr 2
  induction l with
  | nil => rfl
  | cons a l ih =>
    rw [List.countP_cons, List.countP_cons, List.countP_cons, ih]
    cases a.2 <;> simp
    · omega
    · omega

theorem apOf_perm {l l' : List (α × Bool)} (h : l.Perm l') : apOf l = apOf l' := by
  have hp : ∀ s, precisionAt l s = precisionAt l' s := by
    intro s
    unfold precisionAt
    rw [(h.filter _).length_eq, (h.filter _).length_eq]
  unfold apOf labelCount
  simp only [hp]
  rw [((h.filter _).map _).sum_eq, (h.filter _).length_eq]

theorem aucOf_perm {l l' : List (α × Bool)} (h : l.Perm l') : aucOf l = aucOf l' := by
  have hp : ∀ n : α × Bool, ((l.filter fun a => a.2).map fun p => duel p.1 n.1).sum =
      ((l'.filter fun a => a.2).map fun p => duel p.1 n.1).sum := fun n => ((h.filter _).map _).sum_eq
  unfold aucOf labelCount
  simp only [hp]
  rw [((h.filter _).map _).sum_eq, (h.filter _).length_eq, (h.filter _).length_eq]

theorem apSorted {l : List (α × Bool)} (hd : Descending l) (hpos : 0 < labelCount true l) :
    curveSum (fun p p' => ((p'.1 : ℚ) / (labelCount true l : ℚ) - (p.1 : ℚ) / (labelCount true l : ℚ)) *
      ((p'.1 : ℚ) / ((p'.1 + p'.2 : Nat) : ℚ))) (0, 0) (clfCurve 0 0 l) = apOf l := by
  rw [curveSum_clfCurve _ hd]
  have hP : (labelCount true l : ℚ) ≠ 0 := by exact_mod_cast hpos.ne'
  have hterm : ∀ s, ((((atLeast l s).1 : ℚ) / (labelCount true l : ℚ) - ((above l s).1 : ℚ) / (labelCount true l : ℚ)) *
      (((atLeast l s).1 : ℚ) / (((atLeast l s).1 + (atLeast l s).2 : Nat) : ℚ))) =
      (l.map fun a => if a.1 = s then (if a.2 = true then precisionAt l a.1 / (labelCount true l : ℚ) else 0) else 0).sum := by
    intro s
    rw [← precisionAt_eq, ← sub_div]
    have h1 : ((atLeast l s).1 : ℚ) - ((above l s).1 : ℚ) =
        (l.map fun a => if a.1 = s then (if a.2 = true then (1 : ℚ) else 0) else 0).sum := step_count l s fun a => a.2
    rw [h1, div_mul_eq_mul_div, mul_div_assoc, sum_map_mul_right']
    congr 1
    apply List.map_congr_left
    intro a _
    by_cases h : a.1 = s
    · rw [if_pos h, if_pos h, h]
      split <;> ring
    · rw [if_neg h, if_neg h]
      ring
  simp only [hterm]
  rw [sum_by_runs (runs_nodup hd) _ fun a ha => mem_runs.mpr ⟨a, ha, rfl⟩, apOf, div_eq_mul_inv, sum_map_mul_right',
    sum_map_filter']
  simp only [div_eq_mul_inv]

theorem apBinary_eq (l : List (α × Bool)) : apBinary l = apOf l := by
  rw [← apOf_perm (sortDesc_perm l)]
  have hd := sortDesc_descending l
  unfold apBinary
  simp only [last_clfCurve]
  generalize sortDesc l = m at hd ⊢
  rw [← labelCount_true]
  by_cases h : labelCount true m = 0
  · have h0 : apOf m = 0 := by simp [apOf, h]
    rw [h0]
    apply List.sum_eq_zero
    intro x hx
    have hz : ∀ p ∈ clfCurve 0 0 m, p.1 = 0 := by
      intro p hp
      rw [clfCurve_runs m [] 0 0 hd rfl rfl, List.mem_map] at hp
      obtain ⟨s, -, rfl⟩ := hp
      rw [labelCount_true, List.countP_eq_zero] at h
      simp only [List.nil_append, atLeast, List.countP_eq_zero]
      intro a ha
      have := h a ha
      simp [this]
    have hall : (clfCurve 0 0 m).map (fun p => (p.1 : ℚ) / ((p.1 + p.2 : Nat) : ℚ)) =
        (clfCurve 0 0 m).map fun _ => (0 : ℚ) := by
      apply List.map_congr_left
      intro p hp
      simp [hz p hp]
    rw [hall, List.map_const'] at hx
    obtain ⟨i, hi, rfl⟩ := List.mem_iff_getElem.mp hx
    simp
  · simp only [h, if_false]
    rw [← apSorted hd (Nat.pos_of_ne_zero h)]
    have := diff_curve (fun p => (p.1 : ℚ) / (labelCount true m : ℚ)) (fun p => (p.1 : ℚ) / ((p.1 + p.2 : Nat) : ℚ))
      (clfCurve 0 0 m) (0, 0)
    simp only [Nat.cast_zero, zero_div] at this
    exact this

theorem duel_sum (l : List (α × Bool)) (n : α) : (((atLeast l n).1 : ℚ) + ((above l n).1 : ℚ)) / 2 =
    ((l.filter fun a => a.2).map fun p => duel p.1 n).sum := by
  rw [sum_map_filter']
  unfold atLeast above
  dsimp only
  rw [countP_eq_sum, countP_eq_sum, ← List.sum_map_add, div_eq_mul_inv, sum_map_mul_right']
  congr 1
  apply List.map_congr_left
  intro a _
  unfold duel
  rcases lt_trichotomy n a.1 with h | h | h
  · cases a.2 <;> simp [h, h.le]
    norm_num
  · subst h
    cases a.2 <;> simp
  · cases a.2 <;> simp [not_le.mpr h, not_lt.mpr h.le, h.ne']

theorem aucSorted {l : List (α × Bool)} (hd : Descending l) :
    curveSum (fun p p' => ((p'.2 : ℚ) / (labelCount false l : ℚ) - (p.2 : ℚ) / (labelCount false l : ℚ)) *
      (((p'.1 : ℚ) / (labelCount true l : ℚ) + (p.1 : ℚ) / (labelCount true l : ℚ)) / 2)) (0, 0) (clfCurve 0 0 l) =
      aucOf l := by
  rw [curveSum_clfCurve _ hd]
  have hterm : ∀ s, (((atLeast l s).2 : ℚ) / (labelCount false l : ℚ) - ((above l s).2 : ℚ) / (labelCount false l : ℚ)) *
      ((((atLeast l s).1 : ℚ) / (labelCount true l : ℚ) + ((above l s).1 : ℚ) / (labelCount true l : ℚ)) / 2) =
      (l.map fun a => if a.1 = s then (if (!a.2) = true then
        ((l.filter fun a => a.2).map fun p => duel p.1 a.1).sum *
          ((labelCount true l : ℚ) * (labelCount false l : ℚ))⁻¹ else 0) else 0).sum := by
    intro s
    rw [← sub_div, ← add_div]
    have h1 : ((atLeast l s).2 : ℚ) - ((above l s).2 : ℚ) =
        (l.map fun a => if a.1 = s then (if (!a.2) = true then (1 : ℚ) else 0) else 0).sum :=
      step_count l s fun a => !a.2
    have h2 := duel_sum l s
    rw [h1, div_div, mul_comm (labelCount true l : ℚ) 2, ← div_div, h2, div_mul_eq_mul_div, mul_div_assoc, sum_map_mul_right']
    congr 1
    apply List.map_congr_left
    intro a _
    by_cases h : a.1 = s
    · rw [if_pos h, if_pos h, h]
      split
      · rw [one_mul, div_div, div_eq_mul_inv]
      · ring
    · rw [if_neg h, if_neg h]
      ring
  simp only [hterm]
  rw [sum_by_runs (runs_nodup hd) _ fun a ha => mem_runs.mpr ⟨a, ha, rfl⟩, aucOf, div_eq_mul_inv, sum_map_mul_right',
    sum_map_filter']

theorem rocAuc_eq (l : List (α × Bool)) : rocAuc l = aucOf l := by
  rw [← aucOf_perm (sortDesc_perm l)]
  have hd := sortDesc_descending l
  unfold rocAuc
  simp only [last_clfCurve]
  generalize sortDesc l = m at hd ⊢
  rw [← aucSorted hd, labelCount_true, labelCount_false]
  have := diff_curve2 (fun p => (p.2 : ℚ) / ((m.countP fun a => !a.2 : Nat) : ℚ))
    (fun p => (p.1 : ℚ) / ((m.countP fun a => a.2 : Nat) : ℚ)) (clfCurve 0 0 m) (0, 0)
  simp only [Nat.cast_zero, zero_div] at this
  exact this

/-! ### Arrays -/

theorem labelledIn_scoreColumn (yPred : List (List α)) (yTrue : List (List (Option Bool))) (i : Nat) :
    labelledIn (scoreColumn yPred yTrue i) = entries yPred yTrue i := by
  unfold labelledIn scoreColumn entries
  rw [List.filterMap_filterMap]
  apply List.filterMap_congr
  rintro ⟨p, t⟩ _
  simp only [List.getD_eq_getElem?_getD]
  cases p[i]? with
  | none => rfl
  | some s =>
    cases t[i]? with
    | none => rfl
    | some o => cases o <;> rfl

theorem ArrayShape.shapeIs {k : Nat} {yPred : List (List α)} {yTrue : List (List (Option Bool))}
    (h : ArrayShape k yPred yTrue) : Verif.shapeIs k yPred yTrue = true := by
  unfold Verif.shapeIs
  simp only [Bool.and_eq_true, beq_iff_eq, List.all_eq_true]
  exact ⟨⟨h.rows, h.pred⟩, h.labels⟩

theorem ArrayShape.width {k : Nat} {yPred : List (List α)} {yTrue : List (List (Option Bool))}
    (h : ArrayShape k yPred yTrue) (hne : yTrue ≠ []) : (yPred.head?.getD []).length = k := by
  cases yPred with
  | nil =>
    have := h.rows
    simp only [List.length_nil] at this
    exact absurd (List.length_eq_zero_iff.mp this.symm) hne
  | cons r _ => exact h.pred r (by simp)

theorem ogbColumn_eq (key : RankKey) (col : List (α × Option Bool)) :
    ogbColumn key col = if BothLabels (labelledIn col) then some (key.score (labelledIn col)) else none := by
  have h : ∀ b, col.any (fun e => e.2 == some b) = true ↔ 0 < labelCount b (labelledIn col) := by
    intro b
    rw [List.any_eq_true, labelCount, List.length_pos_iff_exists_mem]
    constructor
    · rintro ⟨e, he, hb⟩
      refine ⟨(e.1, b), List.mem_filter.mpr ⟨List.mem_filterMap.mpr ⟨e, he, ?_⟩, by simp⟩⟩
      rw [beq_iff_eq.mp hb]
      rfl
    · rintro ⟨a, ha⟩
      obtain ⟨ha, hb⟩ := List.mem_filter.mp ha
      obtain ⟨e, he, h⟩ := List.mem_filterMap.mp ha
      refine ⟨e, he, ?_⟩
      cases ho : e.2 with
      | none => rw [ho] at h; cases h
      | some c =>
        rw [ho] at h
        cases h
        simpa using hb
  unfold ogbColumn BothLabels
  simp only [Bool.and_eq_true, h]

theorem filterMap_ite {p : Nat → Prop} [DecidablePred p] (f : Nat → ℚ) (l : List Nat) :
    (l.filterMap fun i => if p i then some (f i) else none) = (l.filter fun i => decide (p i)).map f := by
  induction l with
  | nil => rfl
  | cons a l ih =>
    rw [List.filterMap_cons, List.filter_cons]
    by_cases h : p a
    · simp [h, ih]
    · simp [h, ih]

theorem ogbMetric_eq (key : RankKey) {k : Nat} {yPred : List (List α)} {yTrue : List (List (Option Bool))}
    (hs : ArrayShape k yPred yTrue) : ogbMetric key k yPred (some yTrue) =
      if (((List.range k).filter fun i => decide (BothLabels (entries yPred yTrue i))).map
        fun i => key.score (entries yPred yTrue i)) = [] then .error .runtime
      else .ok ((((List.range k).filter fun i => decide (BothLabels (entries yPred yTrue i))).map
        fun i => key.score (entries yPred yTrue i)).sum /
          ((((List.range k).filter fun i => decide (BothLabels (entries yPred yTrue i))).map
            fun i => key.score (entries yPred yTrue i)).length : ℚ)) := by
  unfold ogbMetric
  dsimp only
  rw [hs.shapeIs]
  simp only [Bool.true_eq_false, if_false, ogbColumn_eq, labelledIn_scoreColumn, filterMap_ite]

end Verif
