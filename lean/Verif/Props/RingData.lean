import Verif.Model.RingData
import Verif.Lemmas.Cochains

/-! # The ring-transfer dataset (C48, C49) -/

namespace Verif

/-- The vector of length `c` with a one at `k`. -/
def oneHot (c k : Nat) : List Int := (List.range c).map fun j => if j = k then 1 else 0

/-- `u` and `v` are neighbours on the cycle `0, 1, …, n-1`. -/
def OnCycle (n u v : Nat) : Prop := u < n ∧ v < n ∧ (v = (u + 1) % n ∨ u = (v + 1) % n)

theorem modifyAt_const {A : Type} {l : List A} {i : Nat} {a : A} (h : i < l.length) :
    modifyAt l i (fun _ => a) = .ok (l.set i a) := by
  unfold modifyAt
  rw [List.getElem?_eq_getElem h]

theorem modifyAt_range {A : Type} {l : List A} {i : Nat} {f : A → A} (h : l.length ≤ i) :
    modifyAt l i f = .error .index := by
  unfold modifyAt
  rw [List.getElem?_eq_none h]

theorem set_zeros {c k : Nat} (_h : k < c) : (List.replicate c (0 : Int)).set k 1 = oneHot c k := by
  apply List.ext_getElem (by simp [oneHot])
  intro i h1 h2
  simp only [List.length_set, List.length_replicate] at h1
  simp only [oneHot, List.getElem_map, List.getElem_range, List.getElem_set, List.getElem_replicate]
  by_cases hik : k = i
  · rw [if_pos hik, if_pos hik.symm]
  · rw [if_neg hik, if_neg (Ne.symm hik)]

theorem oneHot_length (c k : Nat) : (oneHot c k).length = c := by simp [oneHot]

theorem argmax_oneHot {c k : Nat} (h : k < c) : argmax (oneHot c k) = .ok k := by
  have hk : (oneHot c k)[k]? = some 1 := by simp [oneHot, h]
  have hle : ∀ b ∈ oneHot c k, b ≤ 1 := by
    intro b hb
    obtain ⟨j, -, rfl⟩ := List.mem_map.mp hb
    split <;> omega
  have hmax : (oneHot c k).max? = some 1 := by
    rw [List.max?_eq_some_iff]
    exact ⟨List.mem_of_getElem? hk, hle⟩
  unfold argmax
  rw [hmax]
  have hidx : (oneHot c k).idxOf 1 = k := by
    have hlt : (oneHot c k).idxOf 1 < (oneHot c k).length := List.idxOf_lt_length_iff.mpr (List.mem_of_getElem? hk)
    have hg := List.getElem_idxOf hlt
    have hgen : ∀ (i : Nat) (hi : i < (oneHot c k).length), (oneHot c k)[i] = if i = k then 1 else 0 := by
      intro i hi
      simp [oneHot]
    rw [hgen] at hg
    by_contra hne
    rw [if_neg hne] at hg
    omega
  simp only [hidx]

theorem mem_ringEdges {n u v : Nat} (hn : 3 ≤ n) : (u, v) ∈ ringEdges n ↔ OnCycle n u v := by
  unfold ringEdges OnCycle
  rw [List.mem_append, List.mem_flatMap]
  have hmod : ∀ a, a < n → (a + 1) % n = if a + 1 = n then 0 else a + 1 := by
    intro a ha
    split
    · rename_i h; rw [h, Nat.mod_self]
    · exact Nat.mod_eq_of_lt (by omega)
  constructor
  · rintro (⟨i, hi, hm⟩ | hm)
    · simp only [List.mem_range] at hi
      simp only [List.mem_cons, Prod.mk.injEq, List.not_mem_nil, or_false] at hm
      rcases hm with ⟨rfl, rfl⟩ | ⟨rfl, rfl⟩
      · refine ⟨by omega, by omega, .inl ?_⟩
        rw [Nat.mod_eq_of_lt (by omega)]
      · refine ⟨by omega, by omega, .inr ?_⟩
        rw [Nat.mod_eq_of_lt (by omega)]
    · simp only [List.mem_cons, Prod.mk.injEq, List.not_mem_nil, or_false] at hm
      rcases hm with ⟨rfl, rfl⟩ | ⟨rfl, rfl⟩
      · refine ⟨by omega, by omega, .inr ?_⟩
        rw [show n - 1 + 1 = n by omega, Nat.mod_self]
      · refine ⟨by omega, by omega, .inl ?_⟩
        rw [show n - 1 + 1 = n by omega, Nat.mod_self]
  · rintro ⟨hu, hv, h | h⟩
    · rw [hmod u hu] at h
      split at h
      · right; simp; omega
      · left; exact ⟨u, by simp; omega, by simp; omega⟩
    · rw [hmod v hv] at h
      split at h
      · right; simp; omega
      · left; exact ⟨v, by simp; omega, by simp; omega⟩

theorem nodup_ringEdges {n : Nat} (hn : 3 ≤ n) : (ringEdges n).Nodup := by
  unfold ringEdges
  rw [List.nodup_append]
  refine ⟨?_, by simp; omega, ?_⟩
  · rw [List.nodup_flatMap]
    refine ⟨fun i _ => by simp, ?_⟩
    refine List.nodup_range.imp ?_
    intro i j hij
    rintro ⟨a, b⟩ h1 h2
    simp only [List.mem_cons, Prod.mk.injEq, List.not_mem_nil, or_false] at h1 h2
    omega
  · rintro ⟨a, b⟩ h1 ⟨a', b'⟩ h2 he
    obtain ⟨i, hi, hm⟩ := List.mem_flatMap.mp h1
    simp only [List.mem_range] at hi
    simp only [List.mem_cons, Prod.mk.injEq, List.not_mem_nil, or_false] at hm h2 he
    omega

/-- **C48** The graph on `n ≥ 3` nodes for class `k` of `c`: the edges of the cycle, each once in each
direction; zeros at node 0, the one-hot class at node `n/2`, ones elsewhere; only node 0 is in the mask; the
label is the class. -/
theorem C48_ring_transfer_graph (n c k : Nat) (hn : 3 ≤ n) (hk : k < c) :
    ∃ G, ringTransferGraph n (oneHot c k) = .ok G ∧
      G.edgeIndex.Nodup ∧ (∀ u v, (u, v) ∈ G.edgeIndex ↔ OnCycle n u v) ∧
      G.x.length = n ∧ G.x[0]? = some (List.replicate c 0) ∧ G.x[n / 2]? = some (oneHot c k) ∧
      (∀ i, i < n → i ≠ 0 → i ≠ n / 2 → G.x[i]? = some (List.replicate c 1)) ∧
      G.mask.length = n ∧ (∀ i, i < n → G.mask[i]? = some (decide (i = 0))) ∧
      G.y = [k] := by
  unfold ringTransferGraph
  dsimp only
  rw [modifyAt_const (by simp; omega), ok_bind, modifyAt_const (by simp; omega), ok_bind,
    modifyAt_const (by simp; omega), ok_bind, argmax_oneHot hk, ok_bind]
  refine ⟨_, rfl, nodup_ringEdges hn, fun u v => mem_ringEdges hn, by simp, ?_, ?_, ?_, by simp, ?_, rfl⟩
  · rw [List.getElem?_set, if_neg (by omega), List.getElem?_set, if_pos rfl, if_pos (by simp; omega), oneHot_length]
  · rw [List.getElem?_set, if_pos rfl, if_pos (by simp; omega)]
  · intro i hi h0 h2
    rw [List.getElem?_set, if_neg (Ne.symm h2), List.getElem?_set, if_neg (Ne.symm h0), List.getElem?_replicate,
      if_pos hi, oneHot_length]
  · intro i hi
    rw [List.getElem?_set]
    split
    · rename_i h; subst h; simp; omega
    · rename_i h; simp [hi, Ne.symm h]

/-- A walk of the graph: consecutive nodes are joined. -/
def IsWalk (n : Nat) : List Nat → Prop
  | [] => True
  | [_] => True
  | u :: v :: l => OnCycle n u v ∧ IsWalk n (v :: l)

/-- **C48** The label is as far away as it can be: every walk from its node `n/2` to the masked node 0 has at
least `n/2` steps, and from any node there is one with at most that many. -/
theorem C48_label_is_far_away (n : Nat) (hn : 3 ≤ n) :
    (∀ w : List Nat, IsWalk n w → w.head? = some (n / 2) → w.getLast? = some 0 → n / 2 + 1 ≤ w.length) ∧
    (∀ u, u < n → ∃ w : List Nat, IsWalk n w ∧ w.head? = some u ∧ w.getLast? = some 0 ∧ w.length ≤ n / 2 + 1) := by
  have hmod : ∀ a, a < n → (a + 1) % n = if a + 1 = n then 0 else a + 1 := by
    intro a ha
    split
    · rename_i h; rw [h, Nat.mod_self]
    · exact Nat.mod_eq_of_lt (by omega)
  constructor
  · have key : ∀ (w : List Nat) (u : Nat), u < n → IsWalk n (u :: w) → (u :: w).getLast? = some 0 →
        min u (n - u) ≤ w.length := by
      intro w
      induction w with
      | nil =>
        intro u hu _ hl
        simp at hl
        omega
      | cons v w ih =>
        intro u hu hw hl
        obtain ⟨⟨h1, h2, h3⟩, h4⟩ := hw
        have := ih v h2 h4 (by simpa using hl)
        rw [hmod u hu, hmod v h2] at h3
        simp only [List.length_cons]
        split at h3 <;> split at h3 <;> omega
    intro w hw hh hl
    cases w with
    | nil => simp at hh
    | cons u w =>
      simp only [List.head?_cons, Option.some.injEq] at hh
      subst hh
      have := key w (n / 2) (by omega) hw hl
      simp only [List.length_cons]
      omega
  · intro u hu
    -- go down to 0, or up to `n-1` and close the ring
    have down : ∀ u, u < n → ∃ w : List Nat, IsWalk n w ∧ w.head? = some u ∧ w.getLast? = some 0 ∧
        w.length = u + 1 := by
      intro u
      induction u with
      | zero => intro _; exact ⟨[0], trivial, rfl, rfl, rfl⟩
      | succ u ih =>
        intro hu
        obtain ⟨w, h1, h2, h3, h4⟩ := ih (by omega)
        cases w with
        | nil => simp at h2
        | cons v w =>
          simp only [List.head?_cons, Option.some.injEq] at h2
          subst h2
          refine ⟨(v + 1) :: v :: w, ⟨⟨hu, by omega, .inr ?_⟩, h1⟩, rfl, by simpa using h3, by simpa using h4⟩
          rw [Nat.mod_eq_of_lt hu]
    have up : ∀ m u, u < n → n - u = m → u ≠ 0 → ∃ w : List Nat, IsWalk n w ∧ w.head? = some u ∧
        w.getLast? = some 0 ∧ w.length = m + 1 := by
      intro m
      induction m with
      | zero => intro u hu hm; omega
      | succ m ih =>
        intro u hu hm h0
        by_cases hlast : u + 1 = n
        · refine ⟨[u, 0], ⟨⟨hu, by omega, .inl ?_⟩, trivial⟩, rfl, rfl, by simp; omega⟩
          rw [hlast, Nat.mod_self]
        · obtain ⟨w, h1, h2, h3, h4⟩ := ih (u + 1) (by omega) (by omega) (by omega)
          cases w with
          | nil => simp at h2
          | cons v w =>
            simp only [List.head?_cons, Option.some.injEq] at h2
            subst h2
            refine ⟨u :: (u + 1) :: w, ⟨⟨hu, by omega, .inl ?_⟩, h1⟩, rfl, by simpa using h3, by simpa using h4⟩
            rw [Nat.mod_eq_of_lt (by omega)]
    by_cases h : u ≤ n / 2
    · obtain ⟨w, h1, h2, h3, h4⟩ := down u hu
      exact ⟨w, h1, h2, h3, by omega⟩
    · obtain ⟨w, h1, h2, h3, h4⟩ := up (n - u) u hu rfl (by omega)
      exact ⟨w, h1, h2, h3, by omega⟩

example : ringTransferGraph 4 (oneHot 3 1) = .ok
    { x := [[0, 0, 0], [1, 1, 1], [0, 1, 0], [1, 1, 1]],
      edgeIndex := [(0, 1), (1, 0), (1, 2), (2, 1), (2, 3), (3, 2), (0, 3), (3, 0)],
      mask := [true, false, false, false], y := [1] } := by decide +kernel

/-! ### The dataset -/

theorem sample_eq_ok {n c q i : Nat} {G : RingGraph} :
    ringTransferSample n c q i = .ok G ↔ q ≠ 0 ∧ i / q < c ∧ ringTransferGraph n (oneHot c (i / q)) = .ok G := by
  unfold ringTransferSample floorDiv
  by_cases hq : q = 0
  · simp [hq]
  · rw [if_neg hq, ok_bind]
    by_cases hc : i / q < c
    · rw [modifyAt_const (by simpa using hc), ok_bind, set_zeros hc]
      simp [hq, hc]
    · rw [modifyAt_range (by simpa using Nat.le_of_not_lt hc)]
      simp [hc]

/-- The graph of class `k` exists as soon as there is a node. -/
theorem graph_ok {n c k : Nat} (hn : 0 < n) (hk : k < c) :
    ∃ G, ringTransferGraph n (oneHot c k) = .ok G ∧ G.y = [k] := by
  unfold ringTransferGraph
  dsimp only
  rw [modifyAt_const (by simp; omega), ok_bind, modifyAt_const (by simp; omega), ok_bind,
    modifyAt_const (by simp; omega), ok_bind, argmax_oneHot hk, ok_bind]
  exact ⟨_, rfl, rfl⟩

theorem graph_y {n c k : Nat} {G : RingGraph} (hk : k < c) (h : ringTransferGraph n (oneHot c k) = .ok G) :
    0 < n ∧ G.y = [k] := by
  have hn : 0 < n := by
    by_contra h0
    obtain rfl : n = 0 := by omega
    unfold ringTransferGraph at h
    rw [modifyAt_range (by simp)] at h
    cases h
  obtain ⟨G', h1, h2⟩ := graph_ok hn hk
  rw [h1] at h
  cases h
  exact ⟨hn, h2⟩

theorem countP_div {q : Nat} (hq : 0 < q) (m k : Nat) :
    (List.range (m * q)).countP (fun i => decide (i / q = k)) = if k < m then q else 0 := by
  induction m with
  | zero => simp
  | succ m ih =>
    rw [Nat.succ_mul, List.range_add, List.countP_append, ih, List.countP_map]
    have h : ∀ j ∈ List.range q, ((fun i => decide (i / q = k)) ∘ fun j => m * q + j) j = decide (m = k) := by
      intro j hj
      simp only [List.mem_range] at hj
      simp only [Function.comp]
      rw [Nat.mul_comm, Nat.mul_add_div hq, Nat.div_eq_of_lt hj, Nat.add_zero]
    rw [List.countP_congr (q := fun _ => decide (m = k)) fun j hj => by rw [h j hj]]
    by_cases hmk : m = k
    · subst hmk; simp
    · simp only [hmk, decide_false, List.countP_false]
      by_cases hkm : k < m
      · rw [if_pos hkm, if_pos (by omega)]; rfl
      · rw [if_neg hkm, if_neg (by omega)]; rfl

/-- **C49** Generating `s` samples of `c` classes on `n` nodes succeeds iff there are classes, the number of
classes divides the number of samples, and there is a node (unless no sample is wanted). -/
theorem C49_generation_succeeds_iff (n c s : Nat) :
    (∃ ds, ringTransferDataset n c s = .ok ds) ↔ 0 < c ∧ c ∣ s ∧ (s = 0 ∨ 0 < n) := by
  unfold ringTransferDataset floorDiv
  by_cases hc : c = 0
  · simp [hc]
  rw [if_neg hc, ok_bind]
  have hc : 0 < c := by omega
  constructor
  · rintro ⟨ds, h⟩
    have h1 := mapE_eq_ok_iff.mp h
    refine ⟨hc, ?_, ?_⟩
    · by_cases hs : s = 0
      · subst hs; exact Nat.dvd_zero c
      have h2 := (List.forall₂_iff_get.mp h1)
      have h3 := h2.2 (s - 1) (by simp; omega) (by rw [← h2.1]; simp; omega)
      simp only [List.get_eq_getElem, List.getElem_range] at h3
      obtain ⟨hq, hlt, -⟩ := sample_eq_ok.mp h3
      have hlt := (Nat.div_lt_iff_lt_mul (Nat.pos_of_ne_zero hq)).mp hlt
      have := Nat.div_mul_le_self s c
      rw [Nat.mul_comm] at this
      exact ⟨s / c, by omega⟩
    · by_cases hs : s = 0
      · exact .inl hs
      right
      have h2 := (List.forall₂_iff_get.mp h1)
      have h3 := h2.2 0 (by simp; omega) (by rw [← h2.1]; simp; omega)
      simp only [List.get_eq_getElem, List.getElem_range] at h3
      obtain ⟨-, hlt, hG⟩ := sample_eq_ok.mp h3
      exact (graph_y hlt hG).1
  · rintro ⟨-, ⟨q, rfl⟩, h⟩
    rw [Nat.mul_div_cancel_left q hc]
    by_cases hs : c * q = 0
    · rw [hs]; exact ⟨[], rfl⟩
    have hn : 0 < n := by omega
    have hq : q ≠ 0 := by rintro rfl; simp at hs
    have : ∀ i, ∃ G, i < c * q → ringTransferSample n c q i = .ok G := by
      intro i
      by_cases hi : i < c * q
      · have hlt : i / q < c := (Nat.div_lt_iff_lt_mul (by omega)).mpr hi
        obtain ⟨G, hG, -⟩ := graph_ok hn hlt
        exact ⟨G, fun _ => sample_eq_ok.mpr ⟨hq, hlt, hG⟩⟩
      · exact ⟨⟨[], [], [], []⟩, fun h => absurd h hi⟩
    choose g hg using this
    exact ⟨_, mapE_ok (g := g) fun i hi => hg i (by simpa using hi)⟩

/-- **C49** When it succeeds there are `s` graphs, graph `i` has label `i / (s / c)` and every class has
exactly `s / c` graphs. -/
theorem C49_labels_are_balanced (n c s : Nat) (ds : List RingGraph) (h : ringTransferDataset n c s = .ok ds) :
    ds.length = s ∧ (∀ i, i < s → ∃ G, ds[i]? = some G ∧ G.y = [i / (s / c)]) ∧
      ∀ k, k < c → ds.countP (fun G => decide (G.y = [k])) = s / c := by
  obtain ⟨hc, ⟨q, rfl⟩, hn⟩ := (C49_generation_succeeds_iff n c s).mp ⟨ds, h⟩
  unfold ringTransferDataset floorDiv at h
  rw [if_neg (by omega), ok_bind, Nat.mul_div_cancel_left q hc] at h
  rw [Nat.mul_div_cancel_left q hc]
  have h1 := mapE_eq_ok_iff.mp h
  have hlen : ds.length = c * q := by rw [← h1.length_eq]; simp
  have hy : ∀ i, i < c * q → ∃ G, ds[i]? = some G ∧ G.y = [i / q] := by
    intro i hi
    have h2 := List.forall₂_iff_get.mp h1
    have hlt : i < ds.length := by omega
    have h3 := h2.2 i (by simpa using hi) hlt
    simp only [List.get_eq_getElem, List.getElem_range] at h3
    obtain ⟨-, h4, h5⟩ := sample_eq_ok.mp h3
    exact ⟨ds[i], List.getElem?_eq_getElem hlt, (graph_y h4 h5).2⟩
  refine ⟨hlen, hy, ?_⟩
  intro k hk
  have hmap : ds.map (·.y) = (List.range (c * q)).map fun i => [i / q] := by
    apply List.ext_getElem (by simp [hlen])
    intro i h2 h3
    simp only [List.length_map] at h2
    obtain ⟨G, h4, h5⟩ := hy i (by omega)
    simp only [List.getElem_map, List.getElem_range]
    rw [← h5]
    rw [List.getElem?_eq_getElem h2] at h4
    cases h4
    rfl
  have h6 : ds.countP (fun G => decide (G.y = [k])) =
      (ds.map (·.y)).countP (fun y => decide (y = [k])) := by rw [List.countP_map]; rfl
  rw [h6, hmap, List.countP_map]
  by_cases hq : q = 0
  · subst hq; simp
  have h7 := countP_div (q := q) (by omega) c k
  rw [if_pos hk] at h7
  refine Eq.trans ?_ h7
  apply List.countP_congr
  intro i _
  simp

/-- **C49** How it fails: division by zero without classes or with fewer samples than classes, an index out of
range otherwise. -/
theorem C49_failures (n c s : Nat) (hn : 0 < n) :
    (c = 0 → ringTransferDataset n c s = .error .zeroDivision) ∧
    (0 < s → s < c → ringTransferDataset n c s = .error .zeroDivision) ∧
    (0 < c → c ≤ s → ¬ c ∣ s → ringTransferDataset n c s = .error .index) := by
  refine ⟨?_, ?_, ?_⟩
  · rintro rfl; rfl
  · intro hs hc
    unfold ringTransferDataset
    have h0 : floorDiv s c = .ok 0 := by
      unfold floorDiv
      rw [if_neg (by omega), Nat.div_eq_of_lt hc]
    rw [h0, ok_bind]
    obtain ⟨s, rfl⟩ : ∃ m, s = m + 1 := ⟨s - 1, by omega⟩
    rw [List.range_succ_eq_map, mapE_cons]
    rfl
  · intro hc hle hd
    cases hr : ringTransferDataset n c s with
    | ok ds => exact absurd ((C49_generation_succeeds_iff n c s).mp ⟨ds, hr⟩).2.1 hd
    | error e =>
      unfold ringTransferDataset floorDiv at hr
      rw [if_neg (by omega), ok_bind] at hr
      have hq : s / c ≠ 0 := by
        have := Nat.div_pos hle hc
        omega
      have key : ∀ (l : List Nat) (e : PyErr), mapE (ringTransferSample n c (s / c)) l = .error e →
          e = .index := by
        intro l
        induction l with
        | nil => intro e h; cases h
        | cons i l ih =>
          intro e h
          rw [mapE_cons] at h
          by_cases hlt : i / (s / c) < c
          · obtain ⟨G, hG, -⟩ := graph_ok hn hlt
            rw [sample_eq_ok.mpr ⟨hq, hlt, hG⟩, ok_bind] at h
            cases hl : mapE (ringTransferSample n c (s / c)) l with
            | error e' =>
              rw [hl] at h
              cases h
              exact ih _ hl
            | ok r => rw [hl] at h; cases h
          · unfold ringTransferSample floorDiv at h
            rw [if_neg hq, ok_bind, modifyAt_range (by simpa using Nat.le_of_not_lt hlt)] at h
            cases h
            rfl
      rw [key _ e hr]

/-- **C49** The train and validation indices of the loaded dataset are consecutive and cover it. -/
theorem C49_indices_cover_the_dataset (n train test c : Nat) (ds : List RingGraph) (tr val : List Nat)
    (h : loadRingTransfer n train test c = .ok (ds, tr, val)) :
    tr ++ val = List.range ds.length ∧ tr.length = train ∧ val.length = test ∧ ds.length = train + test := by
  unfold loadRingTransfer at h
  obtain ⟨a, h1, h⟩ := bind_eq_ok.mp h
  obtain ⟨b, h2, h⟩ := bind_eq_ok.mp h
  cases ok_inj.mp h
  have h3 := (C49_labels_are_balanced n c train a h1).1
  have h4 := (C49_labels_are_balanced n c test b h2).1
  refine ⟨?_, by simpa using h3, by simpa using h4, by simp [h3, h4]⟩
  rw [List.length_append, List.range_add]
  congr 1
  rw [List.range'_eq_map_range]

example : (ringTransferDataset 5 2 4).map (·.map (·.y)) = .ok [[0], [0], [1], [1]] := by decide +kernel
example : ringTransferDataset 5 5 11 = .error .index := by decide +kernel
example : ringTransferDataset 5 5 3 = .error .zeroDivision := by decide +kernel

/-! ### The theorems on concrete cases -/

section Cases
example := C48_ring_transfer_graph 7 5 2 (by omega) (by omega)
example := C48_label_is_far_away 7 (by omega)
/-- The walk from the labelled node to node 0. -/
example : IsWalk 7 [3, 2, 1, 0] ∧ ([3, 2, 1, 0] : List Nat).length = 7 / 2 + 1 := by
  simp [IsWalk, OnCycle]
end Cases

end Verif
