import Verif.Spec.Experiment
import Verif.Lemmas.Lists
import Mathlib.Data.Nat.Choose.Basic
import Mathlib.Tactic.Ring
import Mathlib.Tactic.Linarith

/-!
# Lemmas for training and evaluation
-/

namespace Verif

variable {F L S P : Type}

/-! ### Samples -/

theorem numSamples_complex {batch : Complex F L} {n : Nat → Nat} (h : CellCounts batch n) :
    ∃ m, numSamples (.complexes batch) = .ok m ∧ ∀ k, k ≤ m ↔ ∀ d, d ≤ batch.dimension → k ≤ n d := by
  obtain ⟨c, rows, h1, h2, h3⟩ := h.vertices
  have key : ∀ (ds : List Nat) (m : Nat), (∀ d ∈ ds, 1 ≤ d ∧ d ≤ batch.dimension) →
      ∃ m', foldE (samplesStep batch) m ds = .ok m' ∧ ∀ k, k ≤ m' ↔ k ≤ m ∧ ∀ d ∈ ds, k ≤ n d := by
    intro ds
    induction ds with
    | nil => exact fun m _ => ⟨m, rfl, by simp⟩
    | cons d ds ih =>
      intro m hd
      obtain ⟨c', e1, e2⟩ := h.cells d (hd d (by simp)).1 (hd d (by simp)).2
      have hstep : samplesStep batch m d = .ok (min m (n d)) := by
        unfold samplesStep Complex.cochainAt
        rw [e1]
        show (c'.numCells >>= _) = _
        rw [e2]
        rfl
      obtain ⟨m', e3, e4⟩ := ih (min m (n d)) fun d' h' => hd d' (by simp [h'])
      refine ⟨m', ?_, fun k => ?_⟩
      · unfold foldE
        rw [hstep, ok_bind, e3]
      · rw [e4, Nat.le_min]
        simp [and_assoc]
  obtain ⟨m, e1, e2⟩ := key (List.range' 1 batch.dimension) (n 0) (by
    intro d hd
    have := List.mem_range'_1.mp hd
    omega)
  refine ⟨m, ?_, fun k => ?_⟩
  · show (batch.cochainAt 0 >>= _) = _
    have h4 : batch.cochainAt 0 = .ok c := by unfold Complex.cochainAt; rw [h1]
    have h5 : c.rowsOfX = .ok (n 0) := by unfold Cochain.rowsOfX; rw [h2, ← h3]
    rw [h4, ok_bind, h5, ok_bind]
    exact e1
  · rw [e2]
    constructor
    · rintro ⟨a, b⟩ d hd
      by_cases h0 : d = 0
      · rw [h0]; exact a
      · exact b d (List.mem_range'_1.mpr (by omega))
    · intro hall
      exact ⟨hall 0 (by omega), fun d hd => hall d (by have := List.mem_range'_1.mp hd; omega)⟩

/-! ### Pairs -/

theorem filter_places (p : P → Bool) (l : List P) :
    (l.filter p).length = ((Finset.range l.length).filter fun j => ∃ a ∈ l[j]?, p a = true).card := by
  induction l using List.reverseRecOn with
  | nil => simp
  | append_singleton l a ih =>
    have hold : (Finset.range l.length).filter (fun j => ∃ b ∈ (l ++ [a])[j]?, p b = true) =
        (Finset.range l.length).filter fun j => ∃ b ∈ l[j]?, p b = true := by
      apply Finset.filter_congr
      intro j hj
      rw [Finset.mem_range] at hj
      rw [List.getElem?_append_left hj]
    rw [List.filter_append, List.length_append, List.length_append, List.length_singleton, Finset.range_add_one,
      Finset.filter_insert, hold, ih]
    by_cases ha : p a = true
    · rw [if_pos (by simpa using ha), Finset.card_insert_of_notMem (by simp)]
      simp [ha]
    · rw [if_neg (by simpa using ha)]
      simp [ha]

theorem placePairs_cons (close : P → P → Bool) (a : P) (l : List P) :
    (placePairs close (a :: l)).card = (l.filter (close a)).length + (placePairs close l).card := by
  have hunion : placePairs close (a :: l) =
      ((Finset.range l.length).filter fun j => ∃ b ∈ l[j]?, close a b = true).image (fun j => (0, j + 1)) ∪
        (placePairs close l).image fun p => (p.1 + 1, p.2 + 1) := by
    ext ⟨i, j⟩
    simp only [placePairs, Finset.mem_filter, Finset.mem_product, Finset.mem_range, List.length_cons,
      Finset.mem_union, Finset.mem_image, Prod.mk.injEq, Prod.exists]
    constructor
    · rintro ⟨⟨hi, hj⟩, hlt, x, hx, y, hy, hc⟩
      obtain ⟨j, rfl⟩ : ∃ j', j = j' + 1 := ⟨j - 1, by omega⟩
      cases i with
      | zero =>
        left
        simp only [List.getElem?_cons_zero, Option.mem_def, Option.some.injEq] at hx
        subst hx
        exact ⟨j, ⟨by omega, y, by simpa using hy, hc⟩, rfl, rfl⟩
      | succ i =>
        right
        exact ⟨i, j, ⟨⟨by omega, by omega⟩, by omega, x, by simpa using hx, y, by simpa using hy, hc⟩, rfl, rfl⟩
    · rintro (⟨j', ⟨h1, y, hy, hc⟩, rfl, rfl⟩ | ⟨i', j', ⟨⟨h1, h2⟩, h3, x, hx, y, hy, hc⟩, rfl, rfl⟩)
      · exact ⟨⟨by omega, by omega⟩, by omega, a, by simp, y, by simpa using hy, hc⟩
      · exact ⟨⟨by omega, by omega⟩, by omega, x, by simpa using hx, y, by simpa using hy, hc⟩
  rw [hunion, Finset.card_union_of_disjoint, Finset.card_image_of_injective, Finset.card_image_of_injective,
    filter_places]
  · rintro ⟨a, b⟩ ⟨c, d⟩ e
    simp only [Prod.mk.injEq] at e ⊢
    omega
  · intro a b e
    simp only [Prod.mk.injEq] at e
    omega
  · rw [Finset.disjoint_left]
    intro p h1 h2
    obtain ⟨j, -, rfl⟩ := Finset.mem_image.mp h1
    obtain ⟨q, -, e⟩ := Finset.mem_image.mp h2
    simp only [Prod.mk.injEq] at e
    omega

theorem pdist_count {D : Type} (dist : P → P → D) (p : D → Bool) (l : List P) :
    ((pdist dist l).filter p).length = (placePairs (fun a b => p (dist a b)) l).card := by
  induction l with
  | nil => simp [pdist, placePairs]
  | cons a l ih =>
    unfold pdist
    rw [List.filter_append, List.length_append, ih, placePairs_cons, List.filter_map, List.length_map]
    rfl

theorem pdist_length {D : Type} (dist : P → P → D) (l : List P) : (pdist dist l).length = l.length.choose 2 := by
  induction l with
  | nil => rfl
  | cons a l ih =>
    unfold pdist
    rw [List.length_append, List.length_map, ih, List.length_cons, Nat.choose_succ_succ' l.length 1,
      Nat.choose_one_right]

theorem pdist_perm {D : Type} {dist : P → P → D} (hsymm : ∀ a b, dist a b = dist b a) {l l' : List P}
    (h : l.Perm l') : (pdist dist l).Perm (pdist dist l') := by
  induction h with
  | nil => exact .refl _
  | cons a h ih =>
    unfold pdist
    exact (h.map _).append ih
  | swap a b l =>
    simp only [pdist, List.map_cons, List.cons_append]
    rw [hsymm a b]
    refine List.Perm.cons _ ?_
    rw [← List.append_assoc, ← List.append_assoc]
    exact List.perm_append_comm.append_right _
  | trans _ _ ih1 ih2 => exact ih1.trans ih2

/-! ### The first optimum -/

/-- What `np.argmax` and `np.argmin` need of the comparison. -/
structure Comparison (better : ℚ → ℚ → Bool) : Prop where
  irrefl : ∀ a, better a a = false
  over : ∀ a b c, better a b = true → better c b = false → better a c = true
  notover : ∀ a b c, better a b = true → better c b = false → better c a = false

theorem comparison_max : Comparison fun a b => decide (b < a) := by
  constructor
  · intro a; simp
  · intro a b c h1 h2
    simp only [decide_eq_true_eq, decide_eq_false_iff_not, not_lt] at *
    linarith
  · intro a b c h1 h2
    simp only [decide_eq_true_eq, decide_eq_false_iff_not, not_lt] at *
    linarith

theorem comparison_min : Comparison fun a b => decide (a < b) := by
  constructor
  · intro a; simp
  · intro a b c h1 h2
    simp only [decide_eq_true_eq, decide_eq_false_iff_not, not_lt] at *
    linarith
  · intro a b c h1 h2
    simp only [decide_eq_true_eq, decide_eq_false_iff_not, not_lt] at *
    linarith

theorem argLoop_spec {better : ℚ → ℚ → Bool} (hb : Comparison better) (rest : List (Option ℚ)) :
    ∀ (done : List ℚ) (best : ℚ) (place : Nat), done[place]? = some best →
      (∀ (i : Nat) (w : ℚ), done[i]? = some w → better w best = false) →
      (∀ (i : Nat) (w : ℚ), i < place → done[i]? = some w → better best w = true) →
      (∀ v ∈ rest, v.isSome) →
      ∃ b v, argLoop better best place done.length rest = b ∧ (done.map some ++ rest)[b]? = some (some v) ∧
        (∀ (i : Nat) (w : ℚ), (done.map some ++ rest)[i]? = some (some w) → better w v = false) ∧
        (∀ (i : Nat) (w : ℚ), i < b → (done.map some ++ rest)[i]? = some (some w) → better v w = true) := by
  induction rest with
  | nil =>
    intro done best place h1 h2 h3 _
    refine ⟨place, best, rfl, by simp [h1], ?_, ?_⟩
    · intro i w hw
      rw [List.append_nil, List.getElem?_map, Option.map_eq_some_iff] at hw
      obtain ⟨w', hw', e⟩ := hw
      obtain rfl := Option.some.inj e
      exact h2 i _ hw'
    · intro i w hi hw
      rw [List.append_nil, List.getElem?_map, Option.map_eq_some_iff] at hw
      obtain ⟨w', hw', e⟩ := hw
      obtain rfl := Option.some.inj e
      exact h3 i _ hi hw'
  | cons x rest ih =>
    intro done best place h1 h2 h3 h4
    obtain ⟨v, rfl⟩ := Option.isSome_iff_exists.mp (h4 x (by simp))
    have hlist : done.map some ++ some v :: rest = (done ++ [v]).map some ++ rest := by simp
    have hlt : place < done.length := (List.getElem?_eq_some_iff.mp h1).1
    have hsplit : ∀ (i : Nat) (w : ℚ), (done ++ [v])[i]? = some w → done[i]? = some w ∨ (i = done.length ∧ w = v) := by
      intro i w hw
      by_cases hi : i < done.length
      · rw [List.getElem?_append_left hi] at hw
        exact Or.inl hw
      · have hlen := (List.getElem?_eq_some_iff.mp hw).1
        rw [List.length_append, List.length_singleton] at hlen
        obtain rfl : i = done.length := by omega
        rw [List.getElem?_concat_length] at hw
        exact Or.inr ⟨rfl, (Option.some.inj hw).symm⟩
    rw [hlist]
    unfold argLoop
    have hl : done.length + 1 = (done ++ [v]).length := by simp
    by_cases hv : better v best = true
    · rw [if_pos hv, hl]
      refine ih (done ++ [v]) v done.length (by simp) ?_ ?_ fun y hy => h4 y (by simp [hy])
      · intro i w hw
        rcases hsplit i w hw with h | ⟨-, rfl⟩
        · exact hb.notover _ _ _ hv (h2 i w h)
        · exact hb.irrefl _
      · intro i w hi hw
        rcases hsplit i w hw with h | ⟨rfl, -⟩
        · exact hb.over _ _ _ hv (h2 i w h)
        · omega
    · rw [if_neg hv, hl]
      refine ih (done ++ [v]) best place (by rw [List.getElem?_append_left hlt]; exact h1) ?_ ?_
        fun y hy => h4 y (by simp [hy])
      · intro i w hw
        rcases hsplit i w hw with h | ⟨-, rfl⟩
        · exact h2 i w h
        · exact Bool.not_eq_true _ ▸ hv
      · intro i w hi hw
        rcases hsplit i w hw with h | ⟨rfl, -⟩
        · exact h3 i w hi h
        · omega

theorem argBest_spec {better : ℚ → ℚ → Bool} (hb : Comparison better) (l : List (Option ℚ)) (hne : l ≠ [])
    (hs : ∀ v ∈ l, v.isSome) :
    ∃ b v, argBest better l = .ok b ∧ l[b]? = some (some v) ∧
      (∀ (i : Nat) (w : ℚ), l[i]? = some (some w) → better w v = false) ∧
      (∀ (i : Nat) (w : ℚ), i < b → l[i]? = some (some w) → better v w = true) := by
  cases l with
  | nil => exact absurd rfl hne
  | cons x rest =>
    obtain ⟨v, rfl⟩ := Option.isSome_iff_exists.mp (hs x (by simp))
    obtain ⟨b, w, h1, h2, h3, h4⟩ := argLoop_spec hb rest [v] v 0 rfl (by
      intro i w hw
      have : i < 1 := (List.getElem?_eq_some_iff.mp hw).1
      obtain rfl : i = 0 := by omega
      obtain rfl := Option.some.inj hw
      exact hb.irrefl _) (by intro i w hi; omega) fun y hy => hs y (by simp [hy])
    exact ⟨b, w, by rw [← h1]; rfl, h2, h3, h4⟩

theorem argLoop_nan {better : ℚ → ℚ → Bool} (front : List ℚ) (rest : List (Option ℚ)) (best : ℚ) (place i : Nat) :
    argLoop better best place i (front.map some ++ none :: rest) = i + front.length := by
  induction front generalizing best place i with
  | nil => rfl
  | cons v front ih =>
    rw [List.map_cons, List.cons_append]
    unfold argLoop
    split <;> rw [ih] <;> simp <;> omega

theorem argBest_nan {better : ℚ → ℚ → Bool} (front : List ℚ) (rest : List (Option ℚ)) :
    argBest better (front.map some ++ none :: rest) = .ok front.length := by
  cases front with
  | nil => rfl
  | cons v front =>
    rw [List.map_cons, List.cons_append]
    show Except.ok (argLoop better v 0 1 _) = _
    rw [argLoop_nan, List.length_cons, Nat.add_comm]

end Verif
