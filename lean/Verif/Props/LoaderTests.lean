import Verif.Model.LoaderTests
import Verif.Props.Loader
import Verif.Props.RingProcess
import Verif.Props.Drifters

/-!
# C118: The tests of the loaders, of subsets and of the ring-transfer data
-/

namespace Verif

section loaders
variable {R L : Type}

theorem catLabels_some {ys : List (Option (List L))} {ls : List (List L)} (h : ys = ls.map some) (hne : ls ≠ []) :
    catLabels ys = .ok ls.flatten := by
  subst h
  unfold catLabels
  rw [if_neg (by simpa using hne), if_pos (by simp)]
  simp

/-- The labels of the batches of a loader are those of the complexes, in the order of the sampler. -/
theorem plainLoader_labels {order : List (List Nat) → List (List Nat)} (ho : ∀ l, (order l).Perm l)
    {cs : List (Complex R L)} {maxDim : Nat} (hs : Storable cs maxDim) {st : Storage R L} (hst : collate cs maxDim = .ok st)
    {labels : List L} (hy : cs.map (·.y) = labels.map fun l => some [l]) (hne : cs ≠ []) {b : Nat} (hb : 0 < b) (mB : Nat)
    (before : List Nat) {shuffle : Option (List Nat)} {positions : List Nat}
    (hpos : shuffle = none ∧ positions = List.range cs.length ∨
      shuffle = some positions ∧ positions.Perm (List.range cs.length)) :
    ∃ batches, plainLoader order (Dataset.getMany order ⟨st, none⟩ before).1 shuffle b mB = .ok batches ∧
      ∃ ls, (positions.map fun i => labels[i]?) = ls.map some ∧ catLabels (batches.map (·.y)) = .ok ls := by
  have hl := (C37_length_is_the_number_of_complexes order ho cs maxDim st hst).1 (hs.hasAttribute hne)
  have hrr : ∀ i, cs.length ≤ i → st.read i = .error .index := fun i hi => read_range hst hi
  obtain ⟨-, g2, g3⟩ := getMany_ok hl hrr before ⟨st, none⟩ rfl (by intro l hl; cases hl)
  have hmem : ∀ j ∈ positions, j < cs.length := by
    rcases hpos with ⟨-, rfl⟩ | ⟨-, hp⟩
    · exact fun j hj => List.mem_range.mp hj
    · exact fun j hj => List.mem_range.mp (hp.mem_iff.mp hj)
  have hlen : positions.length = cs.length := by
    rcases hpos with ⟨-, rfl⟩ | ⟨-, hp⟩
    · simp
    · simpa using hp.length_eq
  have hpn : positions ≠ [] := by
    intro h0
    rw [h0] at hlen
    exact hne (List.length_eq_zero_iff.mp hlen.symm)
  have hsam : samplerOf cs.length shuffle = .ok positions := by
    rcases hpos with ⟨rfl, rfl⟩ | ⟨rfl, hp⟩
    · rfl
    · unfold samplerOf
      have : cs.length ≠ 0 := fun h0 => hne (List.length_eq_zero_iff.mp h0)
      simp only [if_neg this]
  have hrun : plainLoader order (Dataset.getMany order ⟨st, none⟩ before).1 shuffle b mB =
      mapE (fun ids => mapE st.read ids >>= fun comps => fromComplexList comps mB) (chunks b positions) := by
    unfold plainLoader
    rw [g2, hl, hsam, ok_bind, if_neg (by omega), loads_ok hl hrr _ _ g2 g3]
  obtain ⟨e1, e2, -, -⟩ := chunks_spec hb positions
  obtain ⟨l0, hl0⟩ : ∃ l, l ∈ labels := by
    obtain ⟨c, cs', rfl⟩ := List.exists_cons_of_ne_nil hne
    cases labels with
    | nil => cases hy
    | cons l _ => exact ⟨l, by simp⟩
  -- what the labels are
  have hlab : ∀ i, i < cs.length → ∃ l, labels[i]? = some l ∧ ∃ c', st.read i = .ok c' ∧ c'.Ready ∧ c'.y = some [l] := by
    intro i hi
    have h1 : (cs.map (·.y))[i]? = some cs[i].y := by rw [List.getElem?_map, List.getElem?_eq_getElem hi]; rfl
    rw [hy, List.getElem?_map] at h1
    obtain ⟨l, hl1, hl2⟩ := Option.map_eq_some_iff.mp h1
    obtain ⟨c', k1, -, k3, -, k5⟩ := hs.reads hst (List.getElem?_eq_getElem hi)
    exact ⟨l, hl1, c', k1, k3, by rw [k5, hl2]⟩
  have hbatch : ∀ part ∈ chunks b positions, ∃ B, (mapE st.read part >>= fun comps => fromComplexList comps mB) = .ok B ∧
      B.y = some (part.map fun i => labels[i]?.getD l0) := by
    intro part hpart
    have hin : ∀ i ∈ part, i < cs.length := fun i hi => hmem i (by rw [← e1]; exact List.mem_flatten.mpr ⟨part, hpart, hi⟩)
    obtain ⟨comps, hcomps⟩ := mapE_exists (f := st.read) (l := part) fun i hi => by
      obtain ⟨l, -, c', h, -⟩ := hlab i (hin i hi)
      exact ⟨c', h⟩
    have hF := mapE_eq_ok_iff.mp hcomps
    have hall : (∀ c ∈ comps, c.Ready ∧ c.y.isSome) ∧
        (comps.flatMap fun c => c.y.getD []) = part.map fun i => labels[i]?.getD l0 := by
      clear hcomps hpart
      induction hF with
      | nil => exact ⟨by simp, rfl⟩
      | @cons i c part comps hic _ ih =>
        obtain ⟨ih1, ih2⟩ := ih fun j hj => hin j (by simp [hj])
        obtain ⟨l, k1, c', k2, k3, k4⟩ := hlab i (hin i (by simp))
        rw [hic, ok_inj] at k2
        subst k2
        refine ⟨?_, by rw [List.flatMap_cons, ih2, List.map_cons, k1, k4]; rfl⟩
        intro d hd
        rcases List.mem_cons.mp hd with rfl | hd
        · exact ⟨k3, by rw [k4]; rfl⟩
        · exact ih1 d hd
    have hcn : comps ≠ [] := by
      intro h0
      have := hF.length_eq
      rw [h0] at this
      exact (e2 part hpart).1 (List.length_eq_zero_iff.mp this)
    obtain ⟨B, hB⟩ := fromComplexList_ok hcn (fun c hc => (hall.1 c hc).1.valid) (fun c hc => (hall.1 c hc).1.featured) mB
    refine ⟨B, by rw [hcomps, ok_bind, hB], ?_⟩
    rw [(C06_batch_labels_dimension_size comps mB B hB).2.2.2.2.2.1 fun c hc => (hall.1 c hc).2, hall.2]
  have hcn : chunks b positions ≠ [] := by
    intro h0
    rw [h0] at e1
    exact hpn (by simpa using e1.symm)
  obtain ⟨batches, hbs⟩ := mapE_exists (f := fun ids => mapE st.read ids >>= fun comps => fromComplexList comps mB)
    fun part hp => (hbatch part hp).imp fun B h => h.1
  refine ⟨batches, by rw [hrun, hbs], positions.map fun i => labels[i]?.getD l0, ?_, ?_⟩
  · rw [List.map_map]
    apply List.map_congr_left
    intro i hi
    obtain ⟨l, hl1, -⟩ := hlab i (hmem i hi)
    simp [hl1]
  · have hys : batches.map (·.y) = ((chunks b positions).map fun part => part.map fun i => labels[i]?.getD l0).map some := by
      have hF := mapE_eq_ok_iff.mp hbs
      clear hbs hrun hcn e1 e2
      generalize chunks b positions = parts at hF hbatch
      induction hF with
      | nil => rfl
      | @cons part B parts Bs hpB _ ih =>
        obtain ⟨B', k1, k2⟩ := hbatch part (by simp)
        rw [hpB, ok_inj] at k1
        subst k1
        rw [List.map_cons, List.map_cons, List.map_cons, k2, ih fun p hp => hbatch p (by simp [hp])]
    rw [catLabels_some hys (by simpa using hcn), ← List.map_flatten, e1]

/-- **C118** `test_data_loader_shuffling`: on any stored dataset of labelled complexes, for every batch size, the two loaders
deliver the same number of labels, and the test passes if and only if the permutation changes the list of labels. So it can
fail by chance: for the permutation that changes nothing, and for every permutation if all labels are the same. -/
theorem C118_shuffling_test [DecidableEq L] (order : List (List Nat) → List (List Nat)) (ho : ∀ l, (order l).Perm l)
    (cs : List (Complex R L)) (maxDim : Nat) (hs : Storable cs maxDim) (st : Storage R L) (hst : collate cs maxDim = .ok st)
    (labels : List L) (hy : cs.map (·.y) = labels.map fun l => some [l]) (hne : cs ≠ []) (b : Nat) (hb : 0 < b) (mB : Nat)
    (permutation : List Nat) (hp : permutation.Perm (List.range cs.length)) :
    ((permutation.map fun i => labels[i]?) ≠ labels.map some → shuffleTest order ⟨st, none⟩ permutation b mB = .ok ()) ∧
    ((permutation.map fun i => labels[i]?) = labels.map some →
      shuffleTest order ⟨st, none⟩ permutation b mB = .error .assertion) ∧
    ((∀ l ∈ labels, ∀ l' ∈ labels, l = l') → shuffleTest order ⟨st, none⟩ permutation b mB = .error .assertion) := by
  have hl := (C37_length_is_the_number_of_complexes order ho cs maxDim st hst).1 (hs.hasAttribute hne)
  have hlen : labels.length = cs.length := by
    have := congrArg List.length hy
    simpa using this.symm
  obtain ⟨bs, h1, ls, h2, h3⟩ := plainLoader_labels ho hs hst hy hne hb mB [] (shuffle := none)
    (positions := List.range cs.length) (.inl ⟨rfl, rfl⟩)
  obtain ⟨bs', h1', ls', h2', h3'⟩ := plainLoader_labels ho hs hst hy hne hb mB (List.range cs.length)
    (shuffle := some permutation) (positions := permutation) (.inr ⟨rfl, hp⟩)
  have hls : ls = labels := by
    have : (List.range cs.length).map (fun i => labels[i]?) = labels.map some := by
      apply List.ext_getElem?
      intro i
      rw [List.getElem?_map, List.getElem?_map]
      by_cases hi : i < cs.length
      · rw [List.getElem?_range hi, List.getElem?_eq_getElem (by omega : i < labels.length)]
        simp
      · rw [List.getElem?_eq_none (by simp; omega), List.getElem?_eq_none (by omega)]
        rfl
    rw [this] at h2
    exact (List.map_injective_iff.mpr (Option.some_injective _) h2).symm
  subst hls
  have hl' : ls'.length = ls.length := by
    have := congrArg List.length h2'
    simp only [List.length_map] at this
    rw [← this, hlen, hp.length_eq, List.length_range]
  have hrun : shuffleTest order ⟨st, none⟩ permutation b mB = pyAssert (decide (ls ≠ ls')) := by
    unfold shuffleTest
    have e0 : (Dataset.getMany order (⟨st, none⟩ : Dataset R L) []).1 = ⟨st, none⟩ := rfl
    rw [e0] at h1
    rw [h1, ok_bind]
    dsimp only
    rw [hl, h1', ok_bind, h3, ok_bind, h3', ok_bind, hl', beq_self_eq_true]
    rfl
  rw [hrun, h2']
  have hinj : ls'.map some = ls.map some ↔ ls = ls' :=
    ⟨fun h => (List.map_injective_iff.mpr (Option.some_injective _) h).symm, fun h => by rw [h]⟩
  have hf : ls = ls' → pyAssert (decide (ls ≠ ls')) = .error .assertion := by
    intro h
    rw [decide_eq_false (by simpa using h)]
    rfl
  refine ⟨?_, fun h => hf (hinj.mp h), ?_⟩
  · intro h
    rw [pyAssert_eq_ok, decide_eq_true_eq]
    exact fun h' => h (hinj.mpr h')
  · intro hall
    apply hf
    apply List.ext_getElem hl'.symm
    intro i hi hi'
    apply hall _ (List.getElem_mem hi)
    have : some ls'[i] ∈ permutation.map fun j => ls[j]? := by
      rw [h2']
      exact List.mem_map_of_mem (List.getElem_mem hi')
    obtain ⟨j, -, hj⟩ := List.mem_map.mp this
    exact List.mem_of_getElem? hj

/-- **C118** `test_idx_splitting_works`: on any stored dataset of labelled complexes and for any ids below its length, the
labels of the subset are those read one by one. Without ids there is nothing to concatenate; an id that is too large is an
`IndexError`. -/
theorem C118_idx_splitting_test [DecidableEq L] (order : List (List Nat) → List (List Nat)) (ho : ∀ l, (order l).Perm l)
    (cs : List (Complex R L)) (maxDim : Nat) (hs : Storable cs maxDim) (st : Storage R L) (hst : collate cs maxDim = .ok st)
    (hy : ∀ c ∈ cs, c.y.isSome) (hne : cs ≠ []) (ids : List Nat) :
    ((∀ i ∈ ids, i < cs.length) → ids ≠ [] → idxSplitTest order ⟨st, none⟩ ids = .ok ()) ∧
    (ids = [] → idxSplitTest order ⟨st, none⟩ ids = .error .runtime) ∧
    ((∃ i ∈ ids, cs.length ≤ i) → idxSplitTest order ⟨st, none⟩ ids = .error .index) := by
  have hl := (C37_length_is_the_number_of_complexes order ho cs maxDim st hst).1 (hs.hasAttribute hne)
  have hrr : ∀ i, cs.length ≤ i → st.read i = .error .index := fun i hi => read_range hst hi
  obtain ⟨g1, -, -⟩ := getMany_ok hl hrr ids ⟨st, none⟩ rfl (by intro l hl; cases hl)
  refine ⟨?_, ?_, ?_⟩
  · intro hin hn
    have hind : mapE (getAt (List.range cs.length)) ids = .ok ids := by
      rw [mapE_eq_ok_iff, List.forall₂_same]
      intro i hi
      rw [getAt_eq_ok, List.getElem?_range (hin i hi)]
    have hpick : mapE (getAt ids) (List.range ids.length) = .ok ids := by
      rw [mapE_eq_ok_iff, List.forall₂_iff_get]
      refine ⟨by simp, ?_⟩
      intro i h1 h2
      rw [getAt_eq_ok]
      simp
    obtain ⟨comps, hcomps⟩ := mapE_exists (f := st.read) (l := ids) fun i hi => by
      obtain ⟨c', h, -⟩ := hs.reads hst (List.getElem?_eq_getElem (hin i hi))
      exact ⟨c', h⟩
    have hcn : comps ≠ [] := by
      intro h0
      have := mapE_length hcomps
      rw [h0] at this
      exact hn (List.length_eq_zero_iff.mp this.symm)
    have hlab : ∀ c ∈ comps, c.y.isSome := by
      intro c hc
      obtain ⟨i, hi, hr⟩ := forall₂_back (mapE_eq_ok_iff.mp hcomps) hc
      obtain ⟨c', h, -, -, -, h5⟩ := hs.reads hst (List.getElem?_eq_getElem (hin i hi))
      rw [hr, ok_inj] at h
      subst h
      rw [h5]
      exact hy _ (List.getElem_mem _)
    have hcat : ∃ ls, catLabels (comps.map (·.y)) = .ok ls := by
      refine ⟨((comps.map (·.y)).map (·.getD [])).flatten, ?_⟩
      unfold catLabels
      rw [if_neg (by simpa using hcn), if_pos]
      rw [List.all_eq_true]
      intro y hy'
      obtain ⟨c, hc, rfl⟩ := List.mem_map.mp hy'
      exact hlab c hc
    obtain ⟨ls, hls⟩ := hcat
    unfold idxSplitTest
    dsimp only
    rw [hl, hind, ok_bind, hpick, ok_bind, g1, hcomps, ok_bind, ok_bind, hls, ok_bind, ok_bind, decide_eq_true rfl]
    rfl
  · rintro rfl
    rfl
  · rintro ⟨i, hi, hle⟩
    unfold idxSplitTest
    dsimp only
    rw [hl]
    have : mapE (getAt (List.range cs.length)) ids = .error .index := by
      clear g1
      induction ids with
      | nil => cases hi
      | cons j ids ih =>
        rw [mapE_cons]
        by_cases hj : j < cs.length
        · have hg : getAt (List.range cs.length) j = .ok j := by rw [getAt_eq_ok, List.getElem?_range hj]
          rcases List.mem_cons.mp hi with rfl | hi
          · omega
          · rw [hg, ok_bind, ih hi, error_bind]
        · have : getAt (List.range cs.length) j = .error .index := by
            unfold getAt
            rw [List.getElem?_eq_none (by simp; omega)]
          rw [this, error_bind]
    rw [this, error_bind]

end loaders

/-! ### The ring-transfer data -/

section rings
variable {R L : Type}

theorem checkEnds_ok {l : List Nat} {n : Nat} (hn : 0 < n) (h : ∀ v, v ∈ l ↔ v < n) : checkEnds l (n - 1) = .ok () := by
  have e1 : l.min? = some 0 := by
    rw [List.min?_eq_some_iff]
    exact ⟨(h 0).mpr hn, fun b _ => Nat.zero_le b⟩
  have e2 : l.max? = some (n - 1) := by
    rw [List.max?_eq_some_iff]
    exact ⟨(h _).mpr (by omega), fun b hb => by have := (h b).mp hb; omega⟩
  unfold checkEnds
  rw [e1, e2]
  simp [pyAssert, ok_bind]

theorem onCycle_neighbour {n v : Nat} (hn : 3 ≤ n) (hv : v < n) : ∃ u, OnCycle n v u ∧ OnCycle n u v := by
  by_cases h : v + 1 < n
  · exact ⟨v + 1, (onCycle_iff hn).mpr (by omega), (onCycle_iff hn).mpr (by omega)⟩
  · exact ⟨0, (onCycle_iff hn).mpr (by omega), (onCycle_iff hn).mpr (by omega)⟩

theorem ringTestStep_ok {n c k : Nat} (hn : 3 ≤ n) (hk : k < c) {G : RingGraph}
    (h : ringTransferGraph n (oneHot c k) = .ok G) (labels : List Nat) : ringTestStep n c labels G = .ok (labels ++ [k]) := by
  obtain ⟨G', h1, -, he, hx, x0, xh, xo, -, -, hy⟩ := C48_ring_transfer_graph n c k hn hk
  rw [h, ok_inj] at h1
  subst h1
  have hfst : ∀ v, v ∈ G.edgeIndex.map Prod.fst ↔ v < n := by
    intro v
    rw [List.mem_map]
    constructor
    · rintro ⟨⟨a, b⟩, hm, rfl⟩
      exact ((he a b).mp hm).1
    · intro hv
      obtain ⟨u, h1, -⟩ := onCycle_neighbour hn hv
      exact ⟨(v, u), (he v u).mpr h1, rfl⟩
  have hsnd : ∀ v, v ∈ G.edgeIndex.map Prod.snd ↔ v < n := by
    intro v
    rw [List.mem_map]
    constructor
    · rintro ⟨⟨a, b⟩, hm, rfl⟩
      exact ((he a b).mp hm).2.1
    · intro hv
      obtain ⟨u, -, h2⟩ := onCycle_neighbour hn hv
      exact ⟨(u, v), (he u v).mpr h2, rfl⟩
  have hw : (G.x.all fun row => row.length == c) = true := by
    rw [List.all_eq_true]
    intro row hrow
    obtain ⟨i, hi, rfl⟩ := List.getElem_of_mem hrow
    have hget := List.getElem?_eq_getElem hi
    rw [beq_iff_eq]
    by_cases i0 : i = 0
    · subst i0
      rw [x0, Option.some.injEq] at hget
      rw [← hget, List.length_replicate]
    · by_cases i1 : i = n / 2
      · subst i1
        rw [xh, Option.some.injEq] at hget
        rw [← hget, oneHot_length]
      · rw [xo i (by omega) i0 i1, Option.some.injEq] at hget
        rw [← hget, List.length_replicate]
  unfold ringTestStep checkRingGraph
  rw [checkEnds_ok (by omega) hfst, ok_bind, checkEnds_ok (by omega) hsnd, ok_bind, hx, hw, hy, beq_self_eq_true]
  rfl

theorem ringTestSteps {n c q : Nat} (hn : 3 ≤ n) : ∀ (is : List Nat) (ds : List RingGraph) (labels : List Nat),
    List.Forall₂ (fun i G => ringTransferSample n c q i = .ok G) is ds →
    foldE (ringTestStep n c) labels ds = .ok (labels ++ is.map (· / q)) := by
  intro is ds labels h
  induction h generalizing labels with
  | nil => simp [foldE]
  | @cons i G is ds hi _ ih =>
    obtain ⟨-, h1, h2⟩ := sample_eq_ok.mp hi
    rw [foldE, ringTestStep_ok hn h1 h2, ok_bind, ih]
    simp

/-- **C118** `test_ringtree_dataset_generation`: for rings of any three or more nodes the test passes for all numbers of
samples that are positive multiples of the number of classes, if the expected number per class is their quotient, and for no
other expected number. When the number of classes does not divide the number of samples, the generation itself fails. -/
theorem C118_ring_generation_test (n c s : Nat) (hn : 3 ≤ n) :
    (0 < c → c ∣ s → 0 < s → ∀ each, (each = s / c → ringGenerationTest n s c each = .ok ()) ∧
      (each ≠ s / c → ringGenerationTest n s c each = .error .assertion)) ∧
    (0 < c → c ≤ s → ¬ c ∣ s → ∀ each, ringGenerationTest n s c each = .error .index) ∧
    (0 < s → s < c → ∀ each, ringGenerationTest n s c each = .error .zeroDivision) := by
  obtain ⟨-, f2, f3⟩ := C49_failures n c s (by omega)
  refine ⟨?_, ?_, ?_⟩
  · rintro hc ⟨q, rfl⟩ hs each
    have hq : 0 < q := Nat.pos_of_mul_pos_left hs
    rw [Nat.mul_div_cancel_left q hc]
    obtain ⟨ds, hds⟩ := (C49_generation_succeeds_iff n c (c * q)).mpr ⟨hc, ⟨q, rfl⟩, .inr (by omega)⟩
    have hds' := hds
    unfold ringTransferDataset floorDiv at hds'
    rw [if_neg (by omega), ok_bind, Nat.mul_div_cancel_left q hc] at hds'
    have hsteps := ringTestSteps hn (List.range (c * q)) ds [] (mapE_eq_ok_iff.mp hds')
    rw [List.nil_append] at hsteps
    have hmem : ∀ k, k ∈ (List.range (c * q)).map (· / q) ↔ k < c := by
      intro k
      rw [List.mem_map]
      constructor
      · rintro ⟨i, hi, rfl⟩
        exact (Nat.div_lt_iff_lt_mul hq).mpr (List.mem_range.mp hi)
      · intro hk
        exact ⟨k * q, List.mem_range.mpr (Nat.mul_lt_mul_of_pos_right hk hq), Nat.mul_div_cancel k hq⟩
    have hcount : ∀ k, k < c → ((List.range (c * q)).map (· / q)).count k = q := by
      intro k hk
      obtain ⟨-, hy, hb⟩ := C49_labels_are_balanced n c (c * q) ds hds
      have hb := hb k hk
      rw [Nat.mul_div_cancel_left q hc] at hb
      refine Eq.trans ?_ hb
      have : (List.range (c * q)).map (· / q) = ds.map fun G => G.y.headD 0 := by
        have hF := mapE_eq_ok_iff.mp hds'
        clear * - hF
        generalize List.range (c * q) = is at hF
        induction hF with
        | nil => rfl
        | @cons i G is ds hi _ ih =>
          obtain ⟨-, h1, h2⟩ := sample_eq_ok.mp hi
          rw [List.map_cons, List.map_cons, ih, (graph_y h1 h2).2]
          rfl
      rw [this, List.count, List.countP_map]
      apply List.countP_congr
      intro G hG
      obtain ⟨i, hi, rfl⟩ := List.getElem_of_mem hG
      have hlen : ds.length = c * q := (C49_labels_are_balanced n c (c * q) ds hds).1
      obtain ⟨G', g1, g2⟩ := hy i (by omega)
      rw [List.getElem?_eq_getElem hi, Option.some.injEq] at g1
      subst g1
      simp [g2]
    have h1 : (((List.range (c * q)).map (· / q)).all (fun l => decide (l < c)) &&
        (List.range c).all fun k => ((List.range (c * q)).map (· / q)).contains k) = true := by
      rw [Bool.and_eq_true, List.all_eq_true, List.all_eq_true]
      refine ⟨fun k hk => decide_eq_true ((hmem k).mp hk), fun k hk => ?_⟩
      rw [List.contains_iff_mem]
      exact (hmem k).mpr (List.mem_range.mp hk)
    have h0 : 0 ∈ (List.range (c * q)).map (· / q) := (hmem 0).mpr hc
    have hrun : ringGenerationTest n (c * q) c each = pyAssert (!((List.range (c * q)).map (· / q)).isEmpty &&
        ((List.range (c * q)).map (· / q)).all fun l => ((List.range (c * q)).map (· / q)).count l == each) := by
      unfold ringGenerationTest
      rw [hds, ok_bind, hsteps, ok_bind, h1]
      rfl
    have hemp : ((List.range (c * q)).map (· / q)).isEmpty = false := by
      rw [List.isEmpty_eq_false_iff]
      exact List.ne_nil_of_mem h0
    rw [hrun, hemp, Bool.not_false, Bool.true_and]
    constructor
    · rintro rfl
      rw [pyAssert_eq_ok, List.all_eq_true]
      intro k hk
      rw [beq_iff_eq]
      exact hcount k ((hmem k).mp hk)
    · intro hne
      have : (((List.range (c * q)).map (· / q)).all fun l => ((List.range (c * q)).map (· / q)).count l == each) = false := by
        rw [List.all_eq_false]
        refine ⟨0, h0, ?_⟩
        rw [hcount 0 hc]
        simpa using Ne.symm hne
      rw [this]
      rfl
  · intro hc hle hd each
    unfold ringGenerationTest
    rw [f3 hc hle hd, error_bind]
  · intro hs hlt each
    unfold ringGenerationTest
    rw [f2 hs hlt, error_bind]

example : ringGenerationTest 5 6 3 2 = .ok () ∧ ringGenerationTest 5 6 3 3 = .error .assertion ∧
    ringGenerationTest 5 7 3 2 = .error .index := by decide +kernel

/-- What the conversion makes of a graph on a ring. -/
theorem ring_cells [DecidableEq R] {g : Gudhi} (hg : g.Ok) {lib : RingLib} (hl : lib.Ok) {agg : List R → R} {width : R → Nat}
    {w : Nat} (hagg : ∀ l : List R, l ≠ [] → (∀ r ∈ l, width r = w) → width (agg l) = w) {n : Nat} (hn : 3 ≤ n) {x : List R}
    (hx : x.length = n) (hw : ∀ r ∈ x, width r = w) (k : Nat) {comp : Complex R Nat}
    (h : ringComplex g lib agg (some x) (ringEdges n) none n (some [k]) n false true true = .ok comp) :
    checkDisc width n w comp = .ok () := by
  have he : EdgesIn (ringEdges n) n := by
    rintro ⟨u, v⟩ hm
    have := (mem_ringEdges hn).mp hm
    exact ⟨this.1, this.2.1⟩
  have hnl : NoLoops (ringEdges n) := by
    rintro ⟨u, v⟩ hm
    have := (onCycle_iff hn).mp ((mem_ringEdges hn).mp hm)
    dsimp only
    omega
  obtain ⟨r, hr, hrp⟩ := getRings_cycle hl hn
  obtain ⟨t, comp', h1, h2, h3, h4, -, h6, -, h10, -, h12, -, -, h15⟩ := ring_lifted (agg := agg) (maxK := n) (down := false)
    (initEdges := true) (initRings := true) (attr := none) (y := some [k]) hg hl he hnl (by omega) hx
    (by intro l hl'; rw [← Option.some.inj hl']; exact .inl rfl) (by intro a ha; cases ha)
  rw [h, ok_inj] at h2
  subst h2
  obtain ⟨⟨comp', f1, -, -, -, f2, -⟩, -⟩ := C28_ring_lifting_succeeds g hg lib hl agg x (ringEdges n) none n (some [k]) n
    false true true he hnl (by omega) hx (by intro l hl'; rw [← Option.some.inj hl']; exact .inl rfl) (by intro a ha; cases ha)
  rw [h, ok_inj] at f1
  subst f1
  have hdim : comp.dimension = 2 := f2.mpr ⟨List.range n, isRing_cycle hn, by simp⟩
  have hlen := h4.len
  have hsz := h3.size
  have c0 := h3.count 0 (by omega)
  have c1 := h3.count 1 (by omega)
  have c2 := h3.count 2 (by omega)
  have l1 : (t.level 1).length = n := by
    rw [h6]
    show ((g.inserted (insertions (ringEdges n) n)).cellsOf n 1).length = n
    rw [(cellsOf_cycle hg hl hn he).length_eq]
    simp [cycleEdges]
    omega
  have l2 : t.level 2 = [r] := by rw [h6]; exact hr
  obtain ⟨rows1, a1, a2, a3⟩ := h12 rfl (by omega) rfl
  obtain ⟨rows2, b1, b2, b3⟩ := h15 rfl (by omega)
  have w1 : ∀ r ∈ rows1, width r = w := width_of_combined hagg hw (by
    intro s hs h0
    rw [h6] at hs
    have := (cellsOf_cycle hg hl hn he).mem_iff.mp hs
    rw [h0] at this
    simp [cycleEdges] at this) a2 a3
  have w2 : ∀ r ∈ rows2, width r = w := width_of_combined hagg hw (by
    intro s hs h0
    rw [l2, List.mem_singleton] at hs
    rw [← hs, h0] at hrp
    have := hrp.length_eq
    simp at this
    omega) b2 b3
  have cells : ∀ (d m : Nat) (c : Cochain R Nat) (rows : List R), comp.cochains[d]? = some c → comp.cellsIn d = m →
      comp.attr d Cochain.x = some rows → rows.length = m → (∀ r ∈ rows, width r = w) → checkCells width m w c = .ok () := by
    intro d m c rows hc hm hrows hlr hwr
    unfold checkCells
    rw [count_of_valid h4 hc, ok_bind, hm, decide_eq_true rfl, ((attr_of hc Cochain.x).symm.trans hrows)]
    simp only [hlr, beq_self_eq_true]
    have : (rows.all fun r => width r == w) = true := by
      rw [List.all_eq_true]
      intro r hr
      rw [beq_iff_eq]
      exact hwr r hr
    rw [this]
    rfl
  have hl0 : comp.cellsIn 0 = n := by
    rw [c0, h6]
    simp [ringCells, SimplexTree.cellsOf]
  cases hcs : comp.cochains with
  | nil => rw [hcs] at hlen; simp at hlen
  | cons v l =>
    cases l with
    | nil => rw [hcs] at hlen; simp at hlen; omega
    | cons e l =>
      cases l with
      | nil => rw [hcs] at hlen; simp at hlen; omega
      | cons f l =>
        unfold checkDisc
        rw [hcs]
        dsimp only
        rw [cells 2 1 f rows2 (by rw [hcs]; rfl) (by rw [c2, l2]; rfl) b1 (by rw [b2, l2]; rfl) w2, ok_bind,
          cells 1 n e rows1 (by rw [hcs]; rfl) (by rw [c1, l1]) a1 (by rw [a2, l1]) w1, ok_bind,
          cells 0 n v x (by rw [hcs]; rfl) hl0 h10 hx hw]

theorem checkCells_ok {width : R → Nat} {n w : Nat} {c : Cochain R L} : checkCells width n w c = .ok () ↔
    c.numCells = .ok (some n) ∧ ∃ rows, c.x = some rows ∧ rows.length = n ∧ ∀ r ∈ rows, width r = w := by
  unfold checkCells
  constructor
  · intro h
    obtain ⟨k, h1, h⟩ := bind_eq_ok.mp h
    obtain ⟨u, hk, h'⟩ := bind_eq_ok.mp h
    replace hk := of_decide_eq_true (pyAssert_eq_ok.mp hk)
    subst hk
    cases hx : c.x with
    | none =>
      rw [hx] at h
      obtain ⟨u', h2, h⟩ := bind_eq_ok.mp h
      cases h
    | some rows =>
      rw [hx] at h
      obtain ⟨u', h2, h⟩ := bind_eq_ok.mp h
      obtain ⟨u, h3, h⟩ := bind_eq_ok.mp h
      exact ⟨h1, rows, rfl, by simpa using pyAssert_eq_ok.mp h3, by simpa using pyAssert_eq_ok.mp h⟩
  · rintro ⟨h1, rows, h2, h3, h4⟩
    have h5 : (rows.all fun r => width r == w) = true := by simpa using h4
    rw [h1, h2]
    simp [pyAssert, ok_bind, h3, h5]

/-- **C118** The checks of a converted complex accept exactly those with at least three cochains of which the first three have
`nodes`, `nodes` and 1 cells and as many rows of features of the right width. -/
theorem C118_what_the_checks_detect (width : R → Nat) (nodes classes : Nat) (comp : Complex R L) :
    checkDisc width nodes classes comp = .ok () ↔ ∃ v e r rest, comp.cochains = v :: e :: r :: rest ∧
      ∀ p ∈ [(v, nodes), (e, nodes), (r, 1)], p.1.numCells = .ok (some p.2) ∧
        ∃ rows, p.1.x = some rows ∧ rows.length = p.2 ∧ ∀ row ∈ rows, width row = classes := by
  unfold checkDisc
  constructor
  · intro h
    split at h
    · rename_i v e r rest hc
      obtain ⟨u, h1, h⟩ := bind_eq_ok.mp h
      obtain ⟨u, h2, h⟩ := bind_eq_ok.mp h
      exact ⟨v, e, r, rest, hc, by
        simp only [List.mem_cons, List.not_mem_nil, or_false, forall_eq_or_imp, forall_eq]
        exact ⟨checkCells_ok.mp h, checkCells_ok.mp h2, checkCells_ok.mp h1⟩⟩
    · cases h
  · rintro ⟨v, e, r, rest, hc, h⟩
    simp only [List.mem_cons, List.not_mem_nil, or_false, forall_eq_or_imp, forall_eq] at h
    rw [hc]
    simp only [checkCells_ok.mpr h.1, checkCells_ok.mpr h.2.1, checkCells_ok.mpr h.2.2, ok_bind]

/-- **C118** `test_ringtree_dataset_conversion`: every graph of the generated dataset becomes the complex of a disc with one
2-cell, as many edges as nodes, and features of the same width in all dimensions, so the test passes for all rings of three
or more nodes whenever the graphs can be generated. -/
theorem C118_ring_conversion_test [DecidableEq R] (g : Gudhi) (hg : g.Ok) (lib : RingLib) (hl : lib.Ok)
    (agg : List R → R) (width : R → Nat) (c : Nat)
    (hagg : ∀ l : List R, l ≠ [] → (∀ r ∈ l, width r = c) → width (agg l) = c)
    (tensor : List Int → R) (hw : ∀ row, width (tensor row) = c) (n s : Nat) (hn : 3 ≤ n) (hc : 0 < c) (hd : c ∣ s) :
    ringConversionTest g lib agg width tensor n s c = .ok () := by
  obtain ⟨ds, hds⟩ := (C49_generation_succeeds_iff n c s).mpr ⟨hc, hd, .inr (by omega)⟩
  have hG := onRing_dataset hn hds
  have : Zero R := ⟨tensor []⟩
  obtain ⟨E, r, converted, comps, -, -, h3, -⟩ := process_discs hg hl hagg hw hn hG
  obtain ⟨hf, -, -, -⟩ := (C35_ring_conversion ..).mp h3
  have hall : ∀ comp ∈ converted.complexes, ∃ u, checkDisc width n c comp = .ok u := by
    intro comp hm
    obtain ⟨data, hdata, hrun⟩ := forall₂_back hf hm
    obtain ⟨G, hGm, rfl⟩ := List.mem_map.mp hdata
    obtain ⟨b1, b2, ⟨k, b3⟩, b4⟩ := hG G hGm
    simp only [RingGraph.data, b1, b2, b3] at hrun
    exact ⟨(), ring_cells hg hl hagg hn (by simpa using b2) (by
      intro r hr
      obtain ⟨row, -, rfl⟩ := List.mem_map.mp hr
      exact hw row) k hrun⟩
  obtain ⟨us, hus⟩ := mapE_exists hall
  unfold ringConversionTest
  rw [hds, ok_bind, h3, ok_bind, hus]
  rfl

end rings

open Fixtures in
/-- The house, a segment and the house again; moving the segment to the front changes the labels, exchanging the two houses
does not. -/
example (st : Storage ℚ Nat) (hst : collate shelf 2 = .ok st) :
    shuffleTest asGiven ⟨st, none⟩ [1, 0, 2] 2 2 = .ok () ∧ shuffleTest asGiven ⟨st, none⟩ [2, 1, 0] 2 2 = .error .assertion :=
  ⟨(C118_shuffling_test asGiven (fun _ => .refl _) shelf 2 shelf_storable st hst ((shelf.map (·.y)).map fun y => (y.getD []).headD 0)
      (by decide) (by decide) 2 (by decide) 2 [1, 0, 2] (by decide)).1 (by decide),
    (C118_shuffling_test asGiven (fun _ => .refl _) shelf 2 shelf_storable st hst ((shelf.map (·.y)).map fun y => (y.getD []).headD 0)
      (by decide) (by decide) 2 (by decide) 2 [2, 1, 0] (by decide)).2.1 (by decide)⟩

open Fixtures in
/-- Ids with a repetition, and an id that is too large. -/
example (st : Storage ℚ Nat) (hst : collate shelf 2 = .ok st) :
    idxSplitTest asGiven ⟨st, none⟩ [2, 0, 2] = .ok () ∧ idxSplitTest asGiven ⟨st, none⟩ [0, 3] = .error .index :=
  ⟨(C118_idx_splitting_test asGiven (fun _ => .refl _) shelf 2 shelf_storable st hst (by decide) (by decide) [2, 0, 2]).1
      (by decide) (by decide),
    (C118_idx_splitting_test asGiven (fun _ => .refl _) shelf 2 shelf_storable st hst (by decide) (by decide) [0, 3]).2.2
      (by decide)⟩

open Fixtures in
/-- The parameters of the test: rings of 10 nodes, 100 samples, 5 classes. -/
example := C118_ring_conversion_test plainGudhi plainGudhi_ok plainRings plainRings_ok List.sum (fun _ : Int => 5) 5
  (fun _ _ _ => rfl) (fun r => r.foldl (2 * · + ·) 0) (fun _ => rfl) 10 100 (by decide) (by decide) (by decide)

example := (C118_ring_generation_test 10 5 100 (by decide)).1 (by decide) (by decide) (by decide) 20

/-- A triangle with features of width 1; and the same with a ring that claims to be one cell but has two rows. -/
example : checkDisc (R := Int) (L := Nat) (fun _ => 1) 3 1 ⟨2, [{ dim := 0, x := some [1, 2, 3] }, { dim := 1, x := some [1, 2, 3] },
      { dim := 2, x := some [6] }], none, none⟩ = .ok () ∧
    checkDisc (R := Int) (L := Nat) (fun _ => 1) 3 1 ⟨2, [{ dim := 0, x := some [1, 2, 3] }, { dim := 1, x := some [1, 2, 3] },
      { dim := 2, x := some [6, 6], numCellsAttr := some (some 1) }], none, none⟩ = .error .assertion := by
  decide

end Verif
