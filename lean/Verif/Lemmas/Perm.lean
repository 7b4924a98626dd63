import Verif.Spec.Perm
import Verif.Lemmas.FlowGraph
import Verif.Lemmas.Boundary
import Mathlib.Algebra.Order.BigOperators.Group.List
import Mathlib.Algebra.Module.NatInt

/-!
# Lemmas about permutation matrices
-/

namespace Verif

theorem foldl_max_spec (l : List Int) (a : Int) :
    (l.foldl max a = a ∨ l.foldl max a ∈ l) ∧ a ≤ l.foldl max a ∧ ∀ b ∈ l, b ≤ l.foldl max a := by
  induction l generalizing a with
  | nil => simp
  | cons c l ih =>
    obtain ⟨h1, h2, h3⟩ := ih (max a c)
    simp only [List.foldl_cons, List.mem_cons]
    refine ⟨?_, by omega, ?_⟩
    · rcases h1 with h1 | h1
      · rw [h1]
        rcases le_total a c with h | h
        · exact .inr (.inl (max_eq_right h))
        · exact .inl (max_eq_left h)
      · exact .inr (.inr h1)
    · rintro b (rfl | hb)
      · omega
      · exact h3 b hb

theorem foldl_min_spec (l : List Int) (a : Int) :
    (l.foldl min a = a ∨ l.foldl min a ∈ l) ∧ l.foldl min a ≤ a ∧ ∀ b ∈ l, l.foldl min a ≤ b := by
  induction l generalizing a with
  | nil => simp
  | cons c l ih =>
    obtain ⟨h1, h2, h3⟩ := ih (min a c)
    simp only [List.foldl_cons, List.mem_cons]
    refine ⟨?_, by omega, ?_⟩
    · rcases h1 with h1 | h1
      · rw [h1]
        rcases le_total a c with h | h
        · exact .inl (min_eq_left h)
        · exact .inr (.inl (min_eq_right h))
      · exact .inr (.inr h1)
    · rintro b (rfl | hb)
      · omega
      · exact h3 b hb

theorem maxOf_ok_iff {l : List Int} {m : Int} : maxOf l = .ok m ↔ m ∈ l ∧ ∀ b ∈ l, b ≤ m := by
  cases l with
  | nil => simp [maxOf]
  | cons a l =>
    obtain ⟨h1, h2, h3⟩ := foldl_max_spec l a
    simp only [maxOf, ok_inj]
    constructor
    · rintro rfl
      refine ⟨?_, ?_⟩
      · rcases h1 with h1 | h1
        · rw [h1]; simp
        · exact List.mem_cons_of_mem _ h1
      · intro b hb
        rcases List.mem_cons.mp hb with rfl | hb
        · exact h2
        · exact h3 b hb
    · rintro ⟨hm, hb⟩
      apply le_antisymm
      · rcases h1 with h1 | h1
        · rw [h1]; exact hb _ (by simp)
        · exact hb _ (List.mem_cons_of_mem _ h1)
      · rcases List.mem_cons.mp hm with rfl | hm
        · exact h2
        · exact h3 m hm

theorem minOf_ok_iff {l : List Int} {m : Int} : minOf l = .ok m ↔ m ∈ l ∧ ∀ b ∈ l, m ≤ b := by
  cases l with
  | nil => simp [minOf]
  | cons a l =>
    obtain ⟨h1, h2, h3⟩ := foldl_min_spec l a
    simp only [minOf, ok_inj]
    constructor
    · rintro rfl
      refine ⟨?_, ?_⟩
      · rcases h1 with h1 | h1
        · rw [h1]; simp
        · exact List.mem_cons_of_mem _ h1
      · intro b hb
        rcases List.mem_cons.mp hb with rfl | hb
        · exact h2
        · exact h3 b hb
    · rintro ⟨hm, hb⟩
      apply le_antisymm
      · rcases List.mem_cons.mp hm with rfl | hm
        · exact h2
        · exact h3 m hm
      · rcases h1 with h1 | h1
        · rw [h1]; exact hb _ (by simp)
        · exact hb _ (List.mem_cons_of_mem _ h1)

/-- Numbers that are not negative and add up to one: one of them is one. -/
theorem one_of_sum {n : Nat} {f : Nat → Int} (h0 : ∀ i, i < n → 0 ≤ f i) (hs : ((List.range n).map f).sum = 1) :
    ∃ k, k < n ∧ ∀ i, i < n → f i = if k = i then 1 else 0 := by
  induction n with
  | zero => simp at hs
  | succ n ih =>
    rw [List.range_succ, List.map_append, List.sum_append] at hs
    simp only [List.map_cons, List.map_nil, List.sum_cons, List.sum_nil, add_zero] at hs
    have hrest : 0 ≤ ((List.range n).map f).sum := by
      apply List.sum_nonneg
      intro x hx
      obtain ⟨i, hi, rfl⟩ := List.mem_map.mp hx
      exact h0 i (by have := List.mem_range.mp hi; omega)
    have hn := h0 n (by omega)
    by_cases hfn : f n = 0
    · rw [hfn, add_zero] at hs
      obtain ⟨k, hk, hf⟩ := ih (fun i hi => h0 i (by omega)) hs
      refine ⟨k, by omega, fun i hi => ?_⟩
      by_cases hin : i = n
      · subst hin
        rw [hfn, if_neg (by omega)]
      · exact hf i (by omega)
    · have hfn1 : f n = 1 := by omega
      have hz : ((List.range n).map f).sum = 0 := by omega
      refine ⟨n, by omega, fun i hi => ?_⟩
      by_cases hin : i = n
      · subst hin
        rw [hfn1, if_pos rfl]
      · rw [if_neg (fun e => hin e.symm)]
        exact List.all_zero_of_le_zero_le_of_sum_eq_zero (l := (List.range n).map f) (by
          intro x hx
          obtain ⟨i, hi, rfl⟩ := List.mem_map.mp hx
          exact h0 i (by have := List.mem_range.mp hi; omega)) hz
          (List.mem_map.mpr ⟨i, List.mem_range.mpr (by omega), rfl⟩)

theorem IsPermutation.perm {n : Nat} {σ : Nat → Nat} (h : IsPermutation n σ) :
    ((List.range n).map σ).Perm (List.range n) := by
  have hnd : ((List.range n).map σ).Nodup :=
    List.nodup_range.map_on fun i hi j hj e => h.inj i j (List.mem_range.mp hi) (List.mem_range.mp hj) e
  have hsub : ((List.range n).map σ) ⊆ List.range n := by
    intro x hx
    obtain ⟨i, hi, rfl⟩ := List.mem_map.mp hx
    exact List.mem_range.mpr (h.lt i (List.mem_range.mp hi))
  exact (hnd.subperm hsub).perm_of_length_le (by simp)

theorem IsPermutation.surj {n : Nat} {σ : Nat → Nat} (h : IsPermutation n σ) {j : Nat} (hj : j < n) :
    ∃ i, i < n ∧ σ i = j := by
  have := h.perm.mem_iff.mpr (List.mem_range.mpr hj)
  obtain ⟨i, hi, e⟩ := List.mem_map.mp this
  exact ⟨i, List.mem_range.mp hi, e⟩

theorem sum_range_congr {n : Nat} {f g : Nat → Int} (h : ∀ i, i < n → f i = g i) :
    ((List.range n).map f).sum = ((List.range n).map g).sum := by
  congr 1
  exact List.map_congr_left fun i hi => h i (List.mem_range.mp hi)

theorem sum_hot {n k : Nat} (hk : k < n) (c : Int) :
    ((List.range n).map fun i => if i = k then c else 0).sum = c := by
  rw [sum_range_single, if_pos hk]

theorem allEqual_of {v : List Int} {c : Int} {n : Nat} (hl : v.length = n) : allEqual v c n = true ↔ ∀ a ∈ v, a = c := by
  unfold allEqual
  rw [if_pos (.inl hl), List.all_eq_true]
  simp

theorem mapE_map_ok {A B : Type} {f : A → Py B} {l : List A} {b : B} (h : ∀ a ∈ l, f a = .ok b) :
    mapE f l = .ok (List.replicate l.length b) := by
  rw [mapE_ok (g := fun _ => b) h, List.map_const']

theorem forall₂_at {A B : Type} {Q : A → B → Prop} {l : List A} {l' : List B} (h : List.Forall₂ Q l l') {i : Nat}
    {a : A} {b : B} (ha : l[i]? = some a) (hb : l'[i]? = some b) : Q a b := by
  induction h generalizing i with
  | nil => simp at ha
  | cons hr _ ih =>
    cases i with
    | zero =>
      simp only [List.getElem?_cons_zero, Option.some.injEq] at ha hb
      rw [← ha, ← hb]
      exact hr
    | succ i =>
      simp only [List.getElem?_cons_succ] at ha hb
      exact ih ha hb

/-- The checks succeed for the matrix of a permutation. -/
theorem valid_of_perm {P : Mat} {n : Nat} {σ : Nat → Nat} (hσ : IsPermutation n σ) (hP : MatrixOf P n σ) :
    isValidPermutationMatrix P n = .ok (decide (n ≤ 1) || !isEye P n) := by
  have hcl : P.columns.length = n := by simp [Mat.columns, hP.cols]
  have hrl : P.rowLists.length = n := by simp [Mat.rowLists, hP.rows]
  have hrow : ∀ r ∈ P.rowLists, r.sum = 1 ∧ 1 ∈ r ∧ (∀ b ∈ r, b ≤ 1) ∧ (∀ b ∈ r, 0 ≤ b) ∧ (1 < n → 0 ∈ r) := by
    intro r hr
    obtain ⟨i, hi, rfl⟩ := List.mem_map.mp hr
    rw [List.mem_range, hP.rows] at hi
    rw [hP.cols]
    have hm : ∀ b, b ∈ (List.range n).map (fun j => P.entry i j) ↔ ∃ j, j < n ∧ b = if σ i = j then 1 else 0 := by
      intro b
      rw [List.mem_map]
      constructor
      · rintro ⟨j, hj, rfl⟩
        exact ⟨j, List.mem_range.mp hj, hP.entry i j hi (List.mem_range.mp hj)⟩
      · rintro ⟨j, hj, rfl⟩
        exact ⟨j, List.mem_range.mpr hj, hP.entry i j hi hj⟩
    refine ⟨?_, (hm 1).mpr ⟨σ i, hσ.lt i hi, by simp⟩, ?_, ?_, ?_⟩
    · rw [sum_range_congr (g := fun j => if j = σ i then 1 else 0), sum_hot (hσ.lt i hi)]
      intro j hj
      rw [hP.entry i j hi hj]
      simp only [eq_comm]
    · intro b hb
      obtain ⟨j, -, rfl⟩ := (hm b).mp hb
      split <;> omega
    · intro b hb
      obtain ⟨j, -, rfl⟩ := (hm b).mp hb
      split <;> omega
    · intro hn
      rw [hm]
      by_cases h : σ i = 0
      · exact ⟨1, hn, by rw [if_neg (by omega)]⟩
      · exact ⟨0, by omega, by rw [if_neg h]⟩
  have hcol : ∀ r ∈ P.columns, r.sum = 1 ∧ 1 ∈ r ∧ (∀ b ∈ r, b ≤ 1) ∧ (∀ b ∈ r, 0 ≤ b) ∧ (1 < n → 0 ∈ r) := by
    intro r hr
    obtain ⟨j, hj, rfl⟩ := List.mem_map.mp hr
    rw [List.mem_range, hP.cols] at hj
    rw [hP.rows]
    obtain ⟨k, hk, rfl⟩ := hσ.surj hj
    have hm : ∀ b, b ∈ (List.range n).map (fun i => P.entry i (σ k)) ↔ ∃ i, i < n ∧ b = if i = k then 1 else 0 := by
      intro b
      rw [List.mem_map]
      have : ∀ i, i < n → P.entry i (σ k) = if i = k then 1 else 0 := by
        intro i hi
        rw [hP.entry i _ hi hj]
        by_cases h : i = k
        · rw [h, if_pos rfl, if_pos rfl]
        · rw [if_neg h, if_neg (fun e => h (hσ.inj i k hi hk e))]
      constructor
      · rintro ⟨i, hi, rfl⟩
        exact ⟨i, List.mem_range.mp hi, this i (List.mem_range.mp hi)⟩
      · rintro ⟨i, hi, rfl⟩
        exact ⟨i, List.mem_range.mpr hi, this i hi⟩
    refine ⟨?_, (hm 1).mpr ⟨k, hk, by simp⟩, ?_, ?_, ?_⟩
    · rw [sum_range_congr (g := fun i => if i = k then 1 else 0), sum_hot hk]
      intro i hi
      rw [hP.entry i _ hi hj]
      by_cases h : i = k
      · rw [h, if_pos rfl, if_pos rfl]
      · rw [if_neg h, if_neg (fun e => h (hσ.inj i k hi hk e))]
    · intro b hb
      obtain ⟨i, -, rfl⟩ := (hm b).mp hb
      split <;> omega
    · intro b hb
      obtain ⟨i, -, rfl⟩ := (hm b).mp hb
      split <;> omega
    · intro hn
      rw [hm]
      by_cases h : k = 0
      · exact ⟨1, hn, by rw [if_neg (by omega)]⟩
      · exact ⟨0, by omega, by rw [if_neg (by omega)]⟩
  have hones : ∀ v : List Int, v = List.replicate n 1 → allEqual v 1 n = true := by
    rintro v rfl
    rw [allEqual_of (by simp)]
    intro a ha
    exact (List.mem_replicate.mp ha).2
  unfold isValidPermutationMatrix
  rw [mapE_map_ok (fun r hr => maxOf_ok_iff.mpr ⟨(hcol r hr).2.1, (hcol r hr).2.2.1⟩), ok_bind,
    mapE_map_ok (fun r hr => maxOf_ok_iff.mpr ⟨(hrow r hr).2.1, (hrow r hr).2.2.1⟩), ok_bind]
  simp only [hcl, hrl]
  have s0 : allEqual (P.columns.map List.sum) 1 n = true := by
    rw [allEqual_of (by simp [hcl])]
    intro a ha
    obtain ⟨r, hr, rfl⟩ := List.mem_map.mp ha
    exact (hcol r hr).1
  have s1 : allEqual (P.rowLists.map List.sum) 1 n = true := by
    rw [allEqual_of (by simp [hrl])]
    intro a ha
    obtain ⟨r, hr, rfl⟩ := List.mem_map.mp ha
    exact (hrow r hr).1
  rw [s0, s1, hones _ rfl, decide_eq_true hP.rows]
  simp only [Bool.and_self, Bool.true_and]
  unfold checkMany
  by_cases hn : 1 < n
  · rw [if_pos hn]
    unfold validMany
    rw [mapE_map_ok (fun r hr => minOf_ok_iff.mpr ⟨(hcol r hr).2.2.2.2 hn, (hcol r hr).2.2.2.1⟩), ok_bind,
      mapE_map_ok (fun r hr => minOf_ok_iff.mpr ⟨(hrow r hr).2.2.2.2 hn, (hrow r hr).2.2.2.1⟩), ok_bind]
    have hz : allEqual (List.replicate n 0) 0 n = true := by
      rw [allEqual_of (by simp)]
      intro a ha
      exact (List.mem_replicate.mp ha).2
    rw [hcl, hrl, hz, decide_eq_false (by omega : ¬ n ≤ 1)]
    rfl
  · rw [if_neg hn, decide_eq_true (by omega : n ≤ 1)]
    rfl

/-- What the checks ensure. -/
theorem perm_of_valid {P : Mat} {n : Nat} (h : isValidPermutationMatrix P n = .ok true) :
    (∃ σ, IsPermutation n σ ∧ MatrixOf P n σ) ∧ (1 < n → isEye P n = false) := by
  unfold isValidPermutationMatrix at h
  obtain ⟨max0, hm0, h⟩ := bind_eq_ok.mp h
  obtain ⟨max1, hm1, h⟩ := bind_eq_ok.mp h
  obtain ⟨more, hmore, h⟩ := bind_eq_ok.mp h
  rw [pure_eq_ok, ok_inj] at h
  simp only [Bool.and_eq_true, decide_eq_true_eq] at h
  obtain ⟨⟨⟨⟨⟨hrows, hs0⟩, hs1⟩, -⟩, -⟩, rfl⟩ := h
  have hrl : P.rowLists.length = n := by simp [Mat.rowLists, hrows]
  rw [allEqual_of (by simp [hrl])] at hs1
  have hrsum : ∀ i, i < n → ((List.range P.cols).map fun j => P.entry i j).sum = 1 := by
    intro i hi
    exact hs1 _ (List.mem_map.mpr ⟨_, List.mem_map.mpr ⟨i, List.mem_range.mpr (by omega), rfl⟩, rfl⟩)
  by_cases hn : 1 < n
  · unfold checkMany at hmore
    rw [if_pos hn] at hmore
    unfold validMany at hmore
    obtain ⟨min0, hn0, hmore⟩ := bind_eq_ok.mp hmore
    obtain ⟨min1, hn1, hmore⟩ := bind_eq_ok.mp hmore
    rw [pure_eq_ok, ok_inj] at hmore
    simp only [Bool.and_eq_true, Bool.not_eq_true'] at hmore
    obtain ⟨⟨hz0, hz1⟩, heye⟩ := hmore
    have hcolsum : P.cols = n ∧ ∀ j, j < n → ((List.range n).map fun i => P.entry i j).sum = 1 := by
      unfold allEqual at hs0
      simp only [Mat.columns, List.length_map, List.length_range, hrows] at hs0
      have hall : ((List.map List.sum (List.map (fun j => List.map (fun i => P.entry i j) (List.range n))
          (List.range P.cols))).all fun x => x == 1) = true →
          ∀ j, j < P.cols → ((List.range n).map fun i => P.entry i j).sum = 1 := by
        intro ha j hj
        rw [List.all_eq_true] at ha
        have := ha _ (List.mem_map.mpr ⟨_, List.mem_map.mpr ⟨j, List.mem_range.mpr hj, rfl⟩, rfl⟩)
        simpa using this
      split at hs0
      · next hc =>
        have hc : P.cols = n := by omega
        exact ⟨hc, fun j hj => hall hs0 j (by omega)⟩
      · split at hs0
        · next hc =>
          rw [decide_eq_false (by omega : ¬ n = 0), Bool.false_or] at hs0
          have h0 := hall hs0 0 (by omega)
          exfalso
          have : ((List.range n).map fun i => P.entry i 0).sum = n := by
            rw [sum_range_congr (g := fun _ => 1)]
            · simp
            · intro i hi
              have := hrsum i hi
              rw [hc] at this
              simpa using this
          omega
        · cases hs0
    obtain ⟨hcols, hcsum⟩ := hcolsum
    have hlen1 : min1.length = n := by rw [mapE_length hn1, hrl]
    rw [allEqual_of hlen1] at hz1
    have hnonneg : ∀ i j, i < n → j < n → 0 ≤ P.entry i j := by
      intro i j hi hj
      have hf := mapE_eq_ok_iff.mp hn1
      have hget : P.rowLists[i]? = some ((List.range P.cols).map fun j => P.entry i j) := by
        simp [Mat.rowLists, hrows, hi]
      obtain ⟨m, hm⟩ : ∃ m, min1[i]? = some m := ⟨_, List.getElem?_eq_getElem (by omega)⟩
      have hr := forall₂_at hf hget hm
      rw [minOf_ok_iff] at hr
      have := hz1 m (List.mem_of_getElem? hm)
      have h2 := hr.2 (P.entry i j) (List.mem_map.mpr ⟨j, List.mem_range.mpr (by omega), rfl⟩)
      omega
    have hone : ∀ i, ∃ k, i < n → k < n ∧ ∀ j, j < n → P.entry i j = if k = j then 1 else 0 := by
      intro i
      by_cases hi : i < n
      · have := hrsum i hi
        rw [hcols] at this
        obtain ⟨k, h1, h2⟩ := one_of_sum (fun j hj => hnonneg i j hi hj) this
        exact ⟨k, fun _ => ⟨h1, h2⟩⟩
      · exact ⟨0, fun h => absurd h hi⟩
    choose σ hσ using hone
    refine ⟨⟨σ, ⟨fun i hi => (hσ i hi).1, ?_⟩, hrows, hcols, fun i j hi hj => (hσ i hi).2 j hj⟩, fun _ => heye⟩
    intro i j hi hj e
    by_contra hij
    obtain ⟨k, hk, hc⟩ := one_of_sum (f := fun a => P.entry a (σ j)) (fun a ha => hnonneg a _ ha (hσ j hj).1)
      (hcsum (σ j) (hσ j hj).1)
    have h1 := hc i hi
    have h2 := hc j hj
    rw [(hσ i hi).2 _ (hσ j hj).1, if_pos e] at h1
    rw [(hσ j hj).2 _ (hσ j hj).1, if_pos rfl] at h2
    have : k = i := by by_contra hne; rw [if_neg hne] at h1; omega
    have : k = j := by by_contra hne; rw [if_neg hne] at h2; omega
    omega
  · refine ⟨?_, fun h => absurd h hn⟩
    by_cases h0 : n = 0
    · subst h0
      have hc : P.cols = 0 := by
        by_contra hc
        have hf := mapE_eq_ok_iff.mp hm0
        have hget : P.columns[0]? = some [] := by
          simp [Mat.columns, hrows, Nat.pos_of_ne_zero hc]
        have hl := mapE_length hm0
        obtain ⟨m, hm⟩ : ∃ m, max0[0]? = some m :=
          ⟨_, List.getElem?_eq_getElem (by rw [hl]; simp [Mat.columns]; omega)⟩
        have := forall₂_at hf hget hm
        cases this
      exact ⟨id, ⟨fun i hi => by omega, fun i j hi => by omega⟩, hrows, hc, fun i j hi => by omega⟩
    · have h1 : n = 1 := by omega
      subst h1
      unfold allEqual at hs0
      rw [if_pos (.inr rfl), List.all_eq_true] at hs0
      have hcol : ∀ j, j < P.cols → P.entry 0 j = 1 := by
        intro j hj
        have := hs0 _ (List.mem_map.mpr ⟨_, List.mem_map.mpr ⟨j, List.mem_range.mpr hj, rfl⟩, rfl⟩)
        rw [hrows] at this
        simpa using this
      have hr := hrsum 0 (by omega)
      rw [sum_range_congr (g := fun _ => 1) hcol] at hr
      simp at hr
      have hc : P.cols = 1 := by omega
      refine ⟨id, ⟨fun i hi => hi, fun i j hi hj _ => by omega⟩, hrows, hc, fun i j hi hj => ?_⟩
      have hi0 : i = 0 := by omega
      have hj0 : j = 0 := by omega
      subst hi0 hj0
      exact hcol 0 (by omega)

end Verif
