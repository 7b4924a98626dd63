import Verif.Model.RingLookup
import Verif.Props.RingData

/-! # The ring-lookup dataset (C71) -/

namespace Verif

/-- How class `v` of `m` is written: one column for one or two classes, otherwise the vector with a one at `v`. -/
def binCode (m v : Nat) : List Int :=
  if m = 1 then [0] else if m = 2 then [if v = 1 then 1 else 0] else oneHot m v

theorem binCode_length (m v w : Nat) : (binCode m v).length = (binCode m w).length := by
  unfold binCode
  split
  · rfl
  · split
    · rfl
    · simp [oneHot_length]

theorem oneHot_get {c k j : Nat} (hj : j < c) : (oneHot c k)[j]? = some (if j = k then 1 else 0) := by
  simp [oneHot, hj]

theorem binCode_inj {m v w : Nat} (hv : v < m) (hw : w < m) (h : binCode m v = binCode m w) : v = w := by
  unfold binCode at h
  split at h
  · omega
  · split at h
    · simp only [List.cons.injEq, and_true] at h
      by_cases h1 : v = 1 <;> by_cases h2 : w = 1 <;> simp [h1, h2] at h <;> omega
    · have h1 := congrArg (fun l => l[v]?) h
      simp only [oneHot_get hv, if_true, Option.some.injEq] at h1
      by_contra hne
      rw [if_neg hne] at h1
      omega

theorem binarize_eq {l : List Nat} {a m : Nat} (hm : 0 < m) (h : l.dedup.insertionSort (· ≤ ·) = List.range' a m) :
    binarize l = .ok (l.map fun v => binCode m (v - a)) := by
  have hmem : ∀ v ∈ l, a ≤ v ∧ v < a + m := by
    intro v hv
    rw [← List.mem_dedup, ← (List.perm_insertionSort (· ≤ ·) l.dedup).mem_iff, h, List.mem_range'_1] at hv
    exact hv
  unfold binarize
  rw [h]
  match m, hm, h, hmem with
  | 1, _, _, _ => rfl
  | 2, _, _, hmem =>
    simp only [List.range'_succ, List.range'_zero, ok_inj]
    refine List.map_congr_left fun v hv => ?_
    have := hmem v hv
    simp only [binCode]
    by_cases h1 : v = a + 1
    · subst h1; simp
    · rw [if_neg h1, if_neg (by omega : ¬ v - a = 1)]
      rfl
  | m + 3, _, _, hmem =>
    simp only [List.range'_succ, ok_inj]
    refine List.map_congr_left fun v hv => ?_
    have := hmem v hv
    have e : a :: (a + 1) :: (a + 1 + 1) :: List.range' (a + 1 + 1 + 1) m = List.range' a (m + 3) := by
      simp [List.range'_succ]
    rw [e]
    unfold binCode
    rw [if_neg (by omega), if_neg (by omega)]
    unfold oneHot
    rw [List.range'_eq_map_range, List.map_map]
    refine List.map_congr_left fun j _ => ?_
    simp only [Function.comp]
    by_cases hj : v = a + j
    · rw [if_pos hj, if_pos (by omega)]
    · rw [if_neg hj, if_neg (by omega)]

theorem sorted_of_perm {l : List Nat} {a m : Nat} (h : l.Perm (List.range' a m)) :
    l.dedup.insertionSort (· ≤ ·) = List.range' a m := by
  have hn : l.Nodup := h.nodup_iff.mpr List.nodup_range'
  rw [hn.dedup]
  refine List.Perm.eq_of_pairwise (le := (· ≤ ·)) ?_ (List.pairwise_insertionSort _ _) ?_
    ((List.perm_insertionSort (· ≤ ·) l).trans h)
  · intro x y _ _ h1 h2; omega
  · exact (List.pairwise_lt_range' (s := a) (n := m)).imp (fun h => Nat.le_of_lt h)

/-- The graph that is drawn, with the coded rows. -/
theorem lookup_graph {n k : Nat} {vals : List Nat} (hn : 2 ≤ n) (hv : vals.Perm (List.range (n - 1))) (hk : k < n - 1) :
    ∃ G v, ringLookupGraph n vals k = .ok G ∧ G.edgeIndex = ringEdges n ∧ G.x.length = n ∧
      G.mask = true :: List.replicate (n - 1) false ∧ vals[k]? = some v ∧ G.y = [v] ∧
      G.x[0]? = some (binCode (n - 1) k ++ List.replicate (binCode (n - 1) 0).length 0) ∧
      ∀ i, i < n - 1 → ∃ w, vals[i]? = some w ∧ w < n - 1 ∧ G.x[i + 1]? = some (binCode (n - 1) i ++ binCode (n - 1) w) := by
  have hlen : vals.length = n - 1 := by rw [hv.length_eq, List.length_range]
  have h1 := binarize_eq (l := List.range' 1 (n - 1)) (a := 1) (m := n - 1) (by omega) (sorted_of_perm (.refl _))
  have h2 := binarize_eq (l := vals) (a := 0) (m := n - 1) (by omega)
    (sorted_of_perm (by rw [← List.range_eq_range']; exact hv))
  have hg1 : getAt vals k = .ok vals[k] := by unfold getAt; rw [List.getElem?_eq_getElem (by omega)]
  have hg2 : getAt ((List.range' 1 (n - 1)).map fun v => binCode (n - 1) (v - 1)) k = .ok (binCode (n - 1) k) := by
    unfold getAt
    rw [List.getElem?_eq_getElem (by simpa using hk)]
    simp
  have hw : ((vals.map fun v => binCode (n - 1) (v - 0)).headD []).length = (binCode (n - 1) 0).length := by
    cases vals with
    | nil => simp at hlen; omega
    | cons a l => exact binCode_length _ _ _
  have hm : modifyAt (List.replicate n false) 0 (fun _ => true) = .ok (true :: List.replicate (n - 1) false) := by
    rw [modifyAt_const (by simp; omega)]
    obtain ⟨m, rfl⟩ : ∃ m, n = m + 1 := ⟨n - 1, by omega⟩
    simp [List.replicate_succ]
  unfold ringLookupGraph
  dsimp only
  rw [h1, ok_bind, h2, ok_bind, hg1, ok_bind, hg2, ok_bind, hw, hm, ok_bind]
  refine ⟨_, vals[k], rfl, rfl, ?_, rfl, List.getElem?_eq_getElem _, rfl, rfl, ?_⟩
  · simp [hlen]; omega
  · intro i hi
    refine ⟨vals[i], List.getElem?_eq_getElem _, ?_, ?_⟩
    · have := hv.mem_iff.mp (List.getElem_mem (by omega : i < vals.length))
      simpa using this
    · dsimp only
      rw [List.getElem?_cons_succ, List.getElem?_zipWith]
      simp [hi, hlen]

/-- **C71** The lookup graph on `n ≥ 4` nodes: the edges of the cycle, each once in each direction; node `i + 1` has
the one-hot key `i` and its value one-hot; node 0 has the key that was drawn and zeros; only node 0 is in the mask; the
label is the value of that key. -/
theorem C71_ring_lookup_graph (n k : Nat) (vals : List Nat) (hn : 4 ≤ n) (hv : vals.Perm (List.range (n - 1)))
    (hk : k < n - 1) :
    ∃ G, ringLookupGraph n vals k = .ok G ∧
      G.edgeIndex.Nodup ∧ (∀ u v, (u, v) ∈ G.edgeIndex ↔ OnCycle n u v) ∧
      G.x.length = n ∧ G.x[0]? = some (oneHot (n - 1) k ++ List.replicate (n - 1) 0) ∧
      (∀ i, i < n - 1 → ∃ w, vals[i]? = some w ∧ G.x[i + 1]? = some (oneHot (n - 1) i ++ oneHot (n - 1) w)) ∧
      G.mask.length = n ∧ (∀ i, i < n → G.mask[i]? = some (decide (i = 0))) ∧
      (∃ v, vals[k]? = some v ∧ G.y = [v]) := by
  obtain ⟨G, v, h1, h2, h3, h4, h5, h6, h7, h8⟩ := lookup_graph (by omega) hv hk
  have hc : ∀ v, binCode (n - 1) v = oneHot (n - 1) v := by
    intro v
    unfold binCode
    rw [if_neg (by omega), if_neg (by omega)]
  refine ⟨G, h1, ?_, ?_, h3, ?_, ?_, ?_, ?_, v, h5, h6⟩
  · rw [h2]; exact nodup_ringEdges (by omega)
  · intro u v; rw [h2]; exact mem_ringEdges (by omega)
  · rw [h7, hc, hc, oneHot_length]
  · intro i hi
    obtain ⟨w, a, -, b⟩ := h8 i hi
    exact ⟨w, a, by rw [b, hc, hc]⟩
  · rw [h4]; simp; omega
  · intro i hi
    rw [h4]
    cases i with
    | zero => rfl
    | succ i =>
      rw [List.getElem?_cons_succ, List.getElem?_replicate, if_pos (by omega)]
      rfl

/-- **C71** The task can be solved by a lookup: for each number of nodes `n ≥ 2` there are a width of the key and a way
to read a value such that in every graph that can be drawn exactly one other node has the key of node 0, and its value
is the label. -/
theorem C71_label_is_the_value_at_the_key (n : Nat) (hn : 2 ≤ n) :
    ∃ (width : Nat) (read : List Int → Nat), ∀ (vals : List Nat) (k : Nat), vals.Perm (List.range (n - 1)) → k < n - 1 →
      ∃ G x0, ringLookupGraph n vals k = .ok G ∧ G.x[0]? = some x0 ∧
        ∃ u row, 0 < u ∧ G.x[u]? = some row ∧ row.take width = x0.take width ∧ G.y = [read (row.drop width)] ∧
          ∀ u' row', 0 < u' → G.x[u']? = some row' → row'.take width = x0.take width → u' = u := by
  classical
  refine ⟨(binCode (n - 1) 0).length, fun c => if h : ∃ v, v < n - 1 ∧ binCode (n - 1) v = c then h.choose else 0, ?_⟩
  intro vals k hv hk
  obtain ⟨G, v, h1, h2, h3, h4, h5, h6, h7, h8⟩ := lookup_graph hn hv hk
  obtain ⟨w, a1, a2, a3⟩ := h8 k hk
  obtain rfl : w = v := Option.some.inj (a1.symm.trans h5)
  have htake : ∀ i (l : List Int), (binCode (n - 1) i ++ l).take (binCode (n - 1) 0).length = binCode (n - 1) i := by
    intro i l
    rw [binCode_length (n - 1) 0 i]
    exact List.take_left
  refine ⟨G, _, h1, h7, k + 1, _, by omega, a3, ?_, ?_, ?_⟩
  · rw [htake, htake]
  · rw [h6, binCode_length (n - 1) 0 k, List.drop_left]
    have hex : ∃ v, v < n - 1 ∧ binCode (n - 1) v = binCode (n - 1) w := ⟨w, a2, rfl⟩
    beta_reduce
    rw [dif_pos hex]
    have := hex.choose_spec
    rw [binCode_inj this.1 a2 this.2]
  · intro u' row' hu hr hk'
    have hlt : u' < n := by
      have := (List.getElem?_eq_some_iff.mp hr).1
      omega
    obtain ⟨i, rfl⟩ : ∃ i, u' = i + 1 := ⟨u' - 1, by omega⟩
    obtain ⟨w', b1, b2, b3⟩ := h8 i (by omega)
    rw [b3] at hr
    obtain rfl := Option.some.inj hr
    rw [htake, htake] at hk'
    rw [binCode_inj (by omega) hk hk']

/-- **C71** With fewer than two nodes there is no key to encode and the generation fails. -/
theorem C71_no_keys (n k : Nat) (vals : List Nat) (hn : n < 2) : ringLookupGraph n vals k = .error .value := by
  unfold ringLookupGraph
  have : List.range' 1 (n - 1) = [] := by rw [show n - 1 = 0 by omega]; rfl
  dsimp only
  rw [this]
  rfl

/-- **C71** The dataset: one graph for each draw, in order, and indices that cover it. -/
theorem C71_lookup_dataset (n : Nat) (hn : 2 ≤ n) (train val : List (List Nat × Nat))
    (h : ∀ d ∈ train ++ val, d.1.Perm (List.range (n - 1)) ∧ d.2 < n - 1) :
    ∃ ds tr va, loadRingLookup n train val = .ok (ds, tr, va) ∧
      List.Forall₂ (fun d G => ringLookupGraph n d.1 d.2 = .ok G) (train ++ val) ds ∧
      tr ++ va = List.range ds.length ∧ tr.length = train.length ∧ va.length = val.length := by
  have key : ∀ l : List (List Nat × Nat), (∀ d ∈ l, d.1.Perm (List.range (n - 1)) ∧ d.2 < n - 1) →
      ∃ ds, ringLookupDataset n l = .ok ds ∧ List.Forall₂ (fun d G => ringLookupGraph n d.1 d.2 = .ok G) l ds := by
    intro l hl
    have : ∃ ds, List.Forall₂ (fun d G => ringLookupGraph n d.1 d.2 = .ok G) l ds := by
      induction l with
      | nil => exact ⟨[], .nil⟩
      | cons d l ih =>
        obtain ⟨ds, hds⟩ := ih fun d hd => hl d (List.mem_cons_of_mem _ hd)
        obtain ⟨G, -, hG, -⟩ := lookup_graph hn (hl d (by simp)).1 (hl d (by simp)).2
        exact ⟨G :: ds, .cons hG hds⟩
    obtain ⟨ds, hds⟩ := this
    exact ⟨ds, mapE_eq_ok_iff.mpr hds, hds⟩
  obtain ⟨a, ha, fa⟩ := key train fun d hd => h d (by simp [hd])
  obtain ⟨b, hb, fb⟩ := key val fun d hd => h d (by simp [hd])
  refine ⟨a ++ b, List.range a.length, List.range' a.length b.length, ?_, ?_, ?_, ?_, ?_⟩
  · unfold loadRingLookup
    rw [ha, ok_bind, hb, ok_bind]
    rfl
  · exact List.rel_append fa fb
  · rw [List.length_append, List.range_add, List.range'_eq_map_range]
  · rw [List.length_range, fa.length_eq]
  · rw [List.length_range', fb.length_eq]

/-- The hypotheses are met by a draw, and the graph is as claimed. -/
example : [2, 0, 1].Perm (List.range (4 - 1)) ∧ ringLookupGraph 4 [2, 0, 1] 0 = .ok
    { x := [[1, 0, 0, 0, 0, 0], [1, 0, 0, 0, 0, 1], [0, 1, 0, 1, 0, 0], [0, 0, 1, 0, 1, 0]],
      edgeIndex := [(0, 1), (1, 0), (1, 2), (2, 1), (2, 3), (3, 2), (0, 3), (3, 0)],
      mask := [true, false, false, false], y := [2] } := by
  refine ⟨by decide, by decide +kernel⟩

/-- With three nodes there are two classes, so one column each. -/
example : (ringLookupGraph 3 [1, 0] 1).map (fun G => (G.x, G.y)) = .ok ([[1, 0], [0, 1], [1, 0]], [0]) := by
  decide +kernel

end Verif
