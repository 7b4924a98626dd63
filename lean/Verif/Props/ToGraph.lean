import Verif.Model.ToGraph
import Verif.Props.Lifting
import Verif.Props.Rings
import Verif.Lemmas.Embed

/-!
# Properties of the graph of a complex (C56) and of the splits of a dataset (C55)
-/

namespace Verif

variable {F L A : Type}

/-! ### C55 -/

theorem joinSplits_snoc (parts : List (List A)) (p : List A) :
    joinSplits (parts ++ [p]) = addSplit (joinSplits parts) p := by
  simp [joinSplits]

theorem mapE_getAt_range' (items : List A) (part : List A) (start : Nat)
    (h : ∀ i, i < part.length → items[start + i]? = part[i]?) :
    mapE (getAt items) (List.range' start part.length) = .ok part := by
  induction part generalizing start with
  | nil => rfl
  | cons p part ih =>
    have h0 := h 0 (by simp)
    have ih' := ih (start + 1) (fun i hi => by
      have := h (i + 1) (by simpa using hi)
      rw [show start + (i + 1) = start + 1 + i by omega] at this
      simpa using this)
    simp only [List.length_cons, List.range'_succ, mapE_cons]
    rw [getAt_eq_ok.mpr (by simpa using h0), ok_bind, ih']
    rfl

/-- **C55** Joining the splits of a dataset: the items are those of the splits one after the other, there is
one list of indices per split, these lists one after the other are `0, 1, 2, …` (so they are disjoint,
consecutive and cover the dataset), and the items at the indices of a split are the items of that split in
their order. -/
theorem C55_splits_partition_the_dataset (parts : List (List A)) :
    (joinSplits parts).items = parts.flatten ∧
    (joinSplits parts).idx.length = parts.length ∧
    (joinSplits parts).idx.flatten = List.range parts.flatten.length ∧
    ∀ (k : Nat) (part : List A), parts[k]? = some part →
      ∃ ids, (joinSplits parts).idx[k]? = some ids ∧ ids.length = part.length ∧
        mapE (getAt (joinSplits parts).items) ids = .ok part := by
  have key : (joinSplits parts).items = parts.flatten ∧
      (joinSplits parts).start = parts.flatten.length ∧
      (joinSplits parts).idx.length = parts.length ∧
      (joinSplits parts).idx.flatten = List.range parts.flatten.length ∧
      ∀ (k : Nat) (part : List A), parts[k]? = some part →
        (joinSplits parts).idx[k]? = some (List.range' (parts.take k).flatten.length part.length) := by
    induction parts using List.reverseRecOn with
    | nil => exact ⟨rfl, rfl, rfl, rfl, by simp⟩
    | append_singleton parts p ih =>
      obtain ⟨h1, h2, h3, h4, h5⟩ := ih
      rw [joinSplits_snoc]
      simp only [addSplit, h1, h2]
      refine ⟨by simp, by simp, by simp [h3], ?_, ?_⟩
      · simp only [List.flatten_append, h4, List.flatten_cons, List.flatten_nil, List.append_nil,
          List.length_append, Nat.add_sub_cancel_left]
        rw [List.range_eq_range', List.range_eq_range']
        have h6 := List.range'_append (s := 0) (m := parts.flatten.length) (n := p.length) (step := 1)
        simpa only [Nat.one_mul, Nat.zero_add] using h6
      · intro k part hk
        by_cases hlt : k < parts.length
        · rw [List.getElem?_append_left hlt] at hk
          rw [List.getElem?_append_left (by omega), h5 k part hk, List.take_append_of_le_length (by omega)]
        · have hlen := lt_of_get hk
          simp only [List.length_append, List.length_cons, List.length_nil] at hlen
          obtain rfl : k = parts.length := by omega
          rw [List.getElem?_append_right (by omega)] at hk
          simp only [Nat.sub_self, List.getElem?_cons_zero, Option.some.injEq] at hk
          subst hk
          rw [List.getElem?_append_right (by omega), h3]
          simp
  obtain ⟨h1, h2, h3, h4, h5⟩ := key
  refine ⟨h1, h3, h4, fun k part hk => ⟨_, h5 k part hk, by simp, ?_⟩⟩
  apply mapE_getAt_range'
  intro i hi
  rw [h1]
  have hsplit : parts = parts.take k ++ part :: parts.drop (k + 1) := by
    have hlt := lt_of_get hk
    rw [List.getElem?_eq_getElem hlt, Option.some.injEq] at hk
    subst hk
    simp
  have hflat := congrArg List.flatten hsplit
  rw [hflat, List.flatten_append, List.getElem?_append_right (by omega), Nat.add_sub_cancel_left, List.flatten_cons,
    List.getElem?_append_left hi]

/-- **C55** The raw ZINC graphs: loading succeeds exactly for the published sizes, and then the three lists of
indices are consecutive, cover the dataset, and each selects its own graphs in order. -/
theorem C55_zinc_graphs (subset : Bool) (train val test : List A) :
    (∀ items i j k, loadZincGraphs subset train val test = .ok (items, i, j, k) →
      items = train ++ val ++ test ∧ i ++ j ++ k = List.range items.length ∧
      mapE (getAt items) i = .ok train ∧ mapE (getAt items) j = .ok val ∧ mapE (getAt items) k = .ok test) ∧
    ((∃ r, loadZincGraphs subset train val test = .ok r) ↔
      (subset = true ∧ train.length = 10000 ∧ val.length = 1000 ∧ test.length = 1000) ∨
      (subset = false ∧ train.length = 220011 ∧ val.length = 24445 ∧ test.length = 5000)) := by
  constructor
  · intro items i j k h
    unfold loadZincGraphs at h
    obtain ⟨-, -, h⟩ := bind_eq_ok.mp h
    obtain ⟨-, -, h⟩ := bind_eq_ok.mp h
    obtain ⟨-, -, h⟩ := bind_eq_ok.mp h
    rw [pure_eq_ok, ok_inj] at h
    simp only [Prod.mk.injEq] at h
    obtain ⟨rfl, rfl, rfl, rfl⟩ := h
    refine ⟨rfl, ?_, mapE_getAt_range' _ _ _ ?_, mapE_getAt_range' _ _ _ ?_, mapE_getAt_range' _ _ _ ?_⟩
    · rw [List.range_eq_range']
      have h1 := List.range'_append (s := 0) (m := train.length) (n := val.length) (step := 1)
      have h2 := List.range'_append (s := 0) (m := train.length + val.length) (n := test.length) (step := 1)
      simp only [Nat.one_mul, Nat.zero_add] at h1 h2
      rw [h1, h2, List.length_append, List.length_append]
    · intro i hi
      rw [Nat.zero_add, List.append_assoc, List.getElem?_append_left hi]
    · intro i hi
      rw [List.append_assoc, List.getElem?_append_right (by omega), Nat.add_sub_cancel_left,
        List.getElem?_append_left hi]
    · intro i hi
      rw [List.getElem?_append_right (by simp only [List.length_append]; omega), List.length_append,
        Nat.add_sub_cancel_left]
  · unfold loadZincGraphs
    cases subset <;>
      simp only [bind_eq_ok, pyAssert_eq_ok, zincSizes, decide_eq_true_eq, exists_const, if_true, pure_eq_ok, ok_inj,
        exists_and_left, exists_eq', and_true, true_and, false_and, or_false, false_or, reduceCtorEq,
        Bool.false_eq_true, if_false]

/-- **C55** Selecting a split by name gives the items at its indices, in their order; other names, splits
without indices and datasets that are themselves selections are rejected. -/
theorem C55_get_split (items : List A) (ids : SplitIds) (subset : Bool) (name : String) :
    (name ≠ "train" → name ≠ "valid" → name ≠ "test" → getSplit items ids subset name = .error .value) ∧
    (∀ pick : SplitIds → Option (List Nat),
      ((name = "train" ∧ pick = SplitIds.train) ∨ (name = "valid" ∧ pick = SplitIds.valid) ∨
        (name = "test" ∧ pick = SplitIds.test)) →
      (pick ids = none → getSplit items ids subset name = .error .assertion) ∧
      (∀ l, pick ids = some l → subset = true → getSplit items ids subset name = .error .assertion) ∧
      (∀ l out, pick ids = some l → subset = false →
        (getSplit items ids subset name = .ok out ↔ l.map (fun i => items[i]?) = out.map some))) := by
  constructor
  · intro h1 h2 h3
    simp [getSplit, h1, h2, h3]
  · intro pick hp
    have hsel : (if name = "train" then .ok ids.train
        else if name = "valid" then .ok ids.valid
        else if name = "test" then .ok ids.test
        else .error .value : Py (Option (List Nat))) = .ok (pick ids) := by
      rcases hp with ⟨rfl, rfl⟩ | ⟨rfl, rfl⟩ | ⟨rfl, rfl⟩
      · simp
      · simp
      · simp
    unfold getSplit
    rw [hsel, ok_bind]
    refine ⟨?_, ?_, ?_⟩
    · intro h; rw [h]
    · intro l h hs; rw [h, hs]; rfl
    · intro l out h hs
      rw [h, hs]
      show mapE (getAt items) l = .ok out ↔ _
      exact indexSelect_eq_ok_iff

example : (joinSplits [["a", "b"], [], ["c"], ["d", "e"]]).items = ["a", "b", "c", "d", "e"] ∧
    (joinSplits [["a", "b"], [], ["c"], ["d", "e"]]).idx = [[0, 1], [], [2], [3, 4]] := by decide

example : getSplit ["a", "b", "c"] ⟨some [0, 2], some [], none⟩ false "train" = .ok ["a", "c"] ∧
    getSplit ["a", "b", "c"] ⟨some [0, 2], some [], none⟩ false "test" = .error .assertion ∧
    getSplit ["a", "b", "c"] ⟨some [0, 2], some [], none⟩ false "val" = .error .value := by decide +kernel

example : ∃ r, loadZincGraphs true (List.replicate 10000 0) (List.replicate 1000 1) (List.replicate 1000 2) = .ok r :=
  (C55_zinc_graphs _ _ _ _).2.mpr (.inl ⟨rfl, List.length_replicate, List.length_replicate, List.length_replicate⟩)

/-! ### C56 -/

/-- **C56** The graph of a valid complex with at least one vertex: the features of the vertices, the upper
adjacency of the vertices as edges, the labels of the complex, and, if the edges have features, per column the
features of the shared edge. -/
theorem C56_graph_of_a_complex (comp : Complex F L) (hv : comp.Valid) (hpos : 0 < comp.cellsIn 0) :
    ∃ G, convertToGraph comp = .ok G ∧ G.x = comp.attr 0 Cochain.x ∧ G.numNodes = comp.cellsIn 0 ∧
      G.edgeIndex = (comp.attr 0 Cochain.upperIndex).getD [] ∧ G.y = comp.y ∧
      (∀ rows, comp.attr 1 Cochain.x = some rows → comp.attr 0 Cochain.upperIndex ≠ none →
        ∃ a, G.edgeAttr = some a ∧ a.length = G.edgeIndex.length ∧
          ∀ (i s : Nat), ((comp.attr 0 Cochain.sharedCoboundaries).getD [])[i]? = some s → a[i]? = rows[s]?) ∧
      (comp.attr 1 Cochain.x = none ∨ comp.attr 0 Cochain.upperIndex = none → G.edgeAttr = none) := by
  have hlen := hv.len
  have h0 : comp.cochains[0]? = some comp.cochains[0] := List.getElem?_eq_getElem (by omega)
  obtain ⟨c, hc⟩ : ∃ c, c = comp.cochains[0] := ⟨_, rfl⟩
  rw [← hc] at h0
  obtain ⟨n, hn⟩ := hv.known c (List.mem_of_getElem? h0)
  have hcells : comp.cellsIn 0 = n := by
    unfold Complex.cellsIn
    rw [h0]
    simp [count_of hn]
  have vc := hv.valid 0 c h0
  have hattr : ∀ {B : Type} (get : Cochain F L → Option B), comp.attr 0 get = get c := by
    intro B get
    unfold Complex.attr
    rw [h0]
    rfl
  have ha1 : (comp.cochains[1]?).bind Cochain.x = comp.attr 1 Cochain.x := rfl
  have hp : 0 < n := by omega
  simp only [hattr, hcells]
  unfold convertToGraph
  rw [h0]
  simp only [hn, ok_bind, positive, hp, decide_true, pyAssert, if_true]
  cases hu : c.upperIndex with
  | none => exact ⟨_, rfl, rfl, rfl, rfl, rfl, by simp, by simp⟩
  | some up =>
    have hb := vc.upperBoth
    rw [hu] at hb
    obtain ⟨sc, hs⟩ : ∃ sc, c.sharedCoboundaries = some sc := Option.isSome_iff_exists.mp hb.symm
    have hls := vc.upperShared
    rw [hu, hs] at hls
    simp only [Option.getD_some] at hls
    simp only [sharedEdgeFeatures, ha1, hs]
    cases hr : comp.attr 1 Cochain.x with
    | none => exact ⟨_, rfl, rfl, rfl, rfl, rfl, by simp, by simp⟩
    | some rows =>
      have hrow : rows.length = comp.cellsIn 1 := by
        unfold Complex.attr at hr
        obtain ⟨c1, h1, h2⟩ := Option.bind_eq_some_iff.mp hr
        exact (hv.valid 1 c1 h1).rows rows h2
      obtain ⟨a, ha⟩ := indexSelect_total (x := rows) (idx := sc) (by
        intro i hi
        rw [hrow]
        exact vc.shared i (by rw [hs]; exact hi))
      have hmap := indexSelect_eq_ok_iff.mp ha
      simp only [ha]
      refine ⟨_, rfl, rfl, rfl, rfl, rfl, ?_, by simp⟩
      intro rows' hrows' _
      obtain rfl := Option.some.inj hrows'
      refine ⟨a, rfl, ?_, ?_⟩
      · have := congrArg List.length hmap
        simp only [List.length_map] at this
        simp only [Option.getD_some]
        omega
      · intro i s hi
        simp only [Option.getD_some] at hi
        have := congrArg (·[i]?) hmap
        simp only [List.getElem?_map, hi, Option.map_some] at this
        cases h : a[i]? with
        | none => rw [h] at this; simp at this
        | some v => rw [h] at this; simpa using this.symm

/-- **C56** What is rejected: a complex without cochains or without vertices, and vertices without a known
number of cells. -/
theorem C56_rejected (comp : Complex F L) :
    (comp.cochains = [] → convertToGraph comp = .error .assertion) ∧
    (∀ c : Cochain F L, comp.cochains[0]? = some c → c.numCells = .ok (some 0) →
      convertToGraph comp = .error .assertion) ∧
    (∀ c : Cochain F L, comp.cochains[0]? = some c → c.numCells = .ok none →
      convertToGraph comp = .error .type) := by
  refine ⟨?_, ?_, ?_⟩
  · intro h
    unfold convertToGraph
    rw [h]
    rfl
  · intro c h hn
    unfold convertToGraph
    rw [h]
    simp only [hn, ok_bind, positive]
    rfl
  · intro c h hn
    unfold convertToGraph
    rw [h]
    simp only [hn, ok_bind, positive]
    rfl

/-- The upper adjacency of the vertices of a lifted graph is the graph. -/
theorem skeleton {edges : List (Nat × Nat)} {size : Nat} {V E : List (List Nat)} {up : List (Nat × Nat)}
    {sc : List Nat} {face : List Nat → List Nat → Prop} (he : EdgesIn edges size)
    (hV : ∀ v, v < size → V[v]? = some [v]) (hVl : V.length = size) (hE : E.Nodup)
    (hEm : ∀ f, f ∈ E ↔ ∃ u v, u < v ∧ f = [u, v] ∧ ((u, v) ∈ edges ∨ (v, u) ∈ edges))
    (hface : ∀ a u, u ∈ E → (face [a] u ↔ a ∈ u)) (hlen : up.length = sc.length) (hnd : (up.zip sc).Nodup)
    (hmem : ∀ a b c, ((a, b), c) ∈ up.zip sc ↔ a ≠ b ∧ ∃ s s' u, V[a]? = some s ∧
      V[b]? = some s' ∧ E[c]? = some u ∧ face s u ∧ face s' u) :
    up.Nodup ∧ (∀ a b, (a, b) ∈ up ↔ Joined edges a b) ∧
    ∀ (i a b : Nat), up[i]? = some (a, b) → ∃ c : Nat, sc[i]? = some c ∧ E[c]? = some (canon (a, b)) := by
  have hVinv : ∀ (a : Nat) (s : List Nat), V[a]? = some s → s = [a] := by
    intro a s h
    have := lt_of_get h
    rw [hV a (by omega)] at h
    exact (Option.some.inj h).symm
  have hcell : ∀ a b c, ((a, b), c) ∈ up.zip sc → a ≠ b ∧ E[c]? = some (canon (a, b)) ∧
      ((a, b) ∈ edges ∨ (b, a) ∈ edges) := by
    intro a b c h
    obtain ⟨hne, s, s', u, h1, h2, h3, h4, h5⟩ := (hmem a b c).mp h
    obtain rfl := hVinv a s h1
    obtain rfl := hVinv b s' h2
    have hu := List.mem_of_getElem? h3
    rw [hface _ _ hu] at h4 h5
    obtain ⟨p, q, hpq, rfl, hj⟩ := (hEm u).mp hu
    simp only [List.mem_cons, List.not_mem_nil, or_false] at h4 h5
    refine ⟨hne, ?_, ?_⟩
    · rw [h3]
      unfold canon
      rw [sortedNat_pair]
      simp only
      split <;> simp <;> omega
    · rcases h4 with rfl | rfl <;> rcases h5 with rfl | rfl
      · exact absurd rfl hne
      · exact hj
      · exact hj.symm
      · exact absurd rfl hne
  have hfst : (up.zip sc).map Prod.fst = up := List.map_fst_zip (by omega)
  refine ⟨?_, ?_, ?_⟩
  · rw [← hfst]
    refine List.Nodup.map_on ?_ hnd
    rintro ⟨⟨a, b⟩, c⟩ h ⟨⟨a', b'⟩, c'⟩ h' heq
    simp only [Prod.mk.injEq] at heq
    obtain ⟨rfl, rfl⟩ := heq
    obtain ⟨-, e1, -⟩ := hcell a b c h
    obtain ⟨-, e2, -⟩ := hcell a b c' h'
    have l1 := lt_of_get e1
    have l2 := lt_of_get e2
    rw [List.getElem?_eq_getElem l1, Option.some.injEq] at e1
    rw [List.getElem?_eq_getElem l2, Option.some.injEq] at e2
    have := (List.Nodup.getElem_inj_iff hE (hi := l1) (hj := l2)).mp (e1.trans e2.symm)
    rw [this]
  · intro a b
    constructor
    · intro h
      rw [← hfst] at h
      obtain ⟨⟨⟨a', b'⟩, c⟩, hm, heq⟩ := List.mem_map.mp h
      simp only [Prod.mk.injEq] at heq
      obtain ⟨rfl, rfl⟩ := heq
      obtain ⟨h1, -, h2⟩ := hcell _ _ _ hm
      exact ⟨h1, h2⟩
    · rintro ⟨hne, hj⟩
      have hcan : canon (a, b) ∈ E := by
        rw [hEm]
        unfold canon
        rw [sortedNat_pair]
        simp only
        split
        · exact ⟨a, b, by omega, rfl, hj⟩
        · exact ⟨b, a, by omega, rfl, hj.symm⟩
      obtain ⟨c, hc⟩ := List.getElem?_of_mem hcan
      have hab : a < size ∧ b < size := by
        rcases hj with h | h
        · exact he _ h
        · exact (he _ h).symm
      have hm : ((a, b), c) ∈ up.zip sc := by
        rw [hmem]
        refine ⟨hne, _, _, _, hV a hab.1, hV b hab.2, hc, ?_, ?_⟩
        · rw [hface _ _ hcan]
          unfold canon
          rw [sortedNat_pair]
          split <;> simp
        · rw [hface _ _ hcan]
          unfold canon
          rw [sortedNat_pair]
          split <;> simp
      exact (List.of_mem_zip hm).1
  · intro i a b h
    have hi := lt_of_get h
    have hs : sc[i]? = some (sc[i]'(by omega)) := List.getElem?_eq_getElem (by omega)
    refine ⟨_, hs, ?_⟩
    have hz : (up.zip sc)[i]? = some ((a, b), sc[i]'(by omega)) := by
      rw [List.getElem?_zip_eq_some]
      exact ⟨h, hs⟩
    exact (hcell _ _ _ (List.mem_of_getElem? hz)).2.1

/-- **C56** Lifting a graph to its clique complex and taking the graph of the result gives the graph back: the
features of the vertices, every pair of joined vertices once in each direction, the label of the graph, and as
features of an edge the combined features of its ends. -/
theorem C56_graph_of_the_clique_complex (g : Gudhi) (hg : g.Ok) (agg : List F → F) (x : List F)
    (edges : List (Nat × Nat)) (size k : Nat) (y : Option (List L)) (down : Bool)
    (he : EdgesIn edges size) (h0 : 0 < size) (hx : x.length = size)
    (hy : ∀ l, y = some l → l.length = 1 ∨ l.length = size) :
    ∃ comp G, cliqueComplex g agg (some x) edges size k y down = .ok comp ∧ convertToGraph comp = .ok G ∧
      G.x = some x ∧ G.numNodes = size ∧ G.edgeIndex.Nodup ∧
      (∀ a b, (a, b) ∈ G.edgeIndex ↔ Joined edges a b) ∧
      (∀ l, y = some l → l.length = 1 → G.y = some l) ∧ (y = none → G.y = none) ∧
      (∀ (i a b : Nat), G.edgeIndex[i]? = some (a, b) → ∃ attr p q, G.edgeAttr = some attr ∧
        x[min a b]? = some p ∧ x[max a b]? = some q ∧ attr[i]? = some (agg [p, q])) := by
  have H := holds_expanded hg he k
  obtain ⟨t, comp, h1, h2, -, c4, c5⟩ := C27_cells_are_the_cliques g hg agg x edges size k y down he h0 hx hy
  obtain ⟨t', h1', -, -, v1, v2, -⟩ := C23_ids_are_consecutive_and_unique _ size H h0
  obtain ⟨t2, comp2, h3, h4, hup⟩ := C25_upper_adjacency_is_sharing_a_coface agg x _ size y down H h0 hx hy
  obtain ⟨t3, comp3, h5, h6, f0, f1⟩ := C29_clique_complex_features g hg agg x edges size k y down he h0 hx hy
  obtain ⟨⟨comp4, h7, hready, hcount, hdim⟩, -⟩ := C28_lifting_succeeds g hg agg x edges size k y down he h0 hx hy
  obtain ⟨-, hl⟩ := C30_labels_of_the_lifted_complex agg x _ size y down H h0 hx
  have h4' : cliqueComplex g agg (some x) edges size k y down = .ok comp2 := h4
  rw [h1] at h1' h3 h5
  cases h1'; cases h3; cases h5
  rw [h2] at h4' h6 h7
  cases h4'; cases h6; cases h7
  obtain ⟨-, l1, l2, -⟩ := hl comp h2
  obtain ⟨up, sc, u1, u2, u3, u4, u5, -⟩ := hup 0
  have hEm : ∀ f, f ∈ t.level 1 ↔ ∃ u v, u < v ∧ f = [u, v] ∧ ((u, v) ∈ edges ∨ (v, u) ∈ edges) := by
    intro f
    rw [c5]
    constructor
    · rintro ⟨a1, a2, -, a4, -⟩
      match f, a2 with
      | [u, v], _ =>
        have huv : u < v := by simpa using a1
        exact ⟨u, v, huv, rfl, a4 u (by simp) v (by simp) (by omega)⟩
    · rintro ⟨u, v, huv, rfl, hj⟩
      have huv' : u < size ∧ v < size := by
        rcases hj with h | h
        · exact he _ h
        · exact (he _ h).symm
      refine ⟨by simpa using huv, rfl, ?_, ?_, by omega⟩
      · intro w hw
        simp only [List.mem_cons, List.not_mem_nil, or_false] at hw
        rcases hw with rfl | rfl
        · exact huv'.1
        · exact huv'.2
      · intro p hp q hq hpq
        simp only [List.mem_cons, List.not_mem_nil, or_false] at hp hq
        rcases hp with rfl | rfl <;> rcases hq with rfl | rfl
        · exact absurd rfl hpq
        · exact hj
        · exact hj.symm
        · exact absurd rfl hpq
  obtain ⟨s1, s2, s3⟩ := skeleton (face := fun s u => s.Sublist u) he v1 v2 (c4 1) hEm
    (fun a u _ => List.singleton_sublist) u3 u4 u5
  obtain ⟨G, g1, g2, g3, g4, g5, g6, -⟩ := C56_graph_of_a_complex comp hready.valid (by omega)
  refine ⟨comp, G, h2, g1, by rw [g2, f0], by omega, by rw [g4, u1]; exact s1, by rw [g4, u1]; exact s2,
    fun l e1 e2 => by rw [g5]; exact (l2 l e1 e2).2, fun e => by rw [g5]; exact (l1 e).2, ?_⟩
  intro i a b hi
  rw [g4, u1] at hi
  obtain ⟨c, e1, e2⟩ := s3 i a b hi
  have hlen1 := lt_of_get e2
  have hdim1 : 1 ≤ comp.dimension := by
    have hc1 : comp.cellsIn 1 = (t.level 1).length := by
      obtain ⟨t'', comp'', a1, a2, a3, -⟩ := C27_cells_are_the_cliques g hg agg x edges size k y down he h0 hx hy
      rw [h1] at a1; rw [h2] at a2
      cases a1; cases a2
      exact a3 1
    by_contra hc
    have hlen := hready.valid.len
    have : comp.cellsIn 1 = 0 := by
      unfold Complex.cellsIn
      rw [List.getElem?_eq_none (l := comp.cochains) (by omega)]
      rfl
    omega
  obtain ⟨rows, r1, r2, r3⟩ := f1 1 (by omega) hdim1
  obtain ⟨vals, w1, w2⟩ := r3 c _ e2
  have hne : comp.attr 0 Cochain.upperIndex ≠ none := by
    intro hnone
    rw [hnone] at u1
    rw [← u1] at hi
    simp at hi
  obtain ⟨attr, q1, q2, q3⟩ := g6 rows r1 hne
  have hrow : attr[i]? = some (agg vals) := by rw [q3 i c (by rw [u2]; exact e1), w2]
  unfold canon at w1
  rw [sortedNat_pair] at w1
  simp only at w1
  split at w1 <;>
  · rename_i hle
    obtain ⟨p, vs, hp, w3, rfl⟩ := List.forall₂_cons_left_iff.mp w1
    obtain ⟨q, vs', hq, w4, rfl⟩ := List.forall₂_cons_left_iff.mp w3
    obtain rfl := List.forall₂_nil_left_iff.mp w4
    refine ⟨attr, p, q, q1, ?_, ?_, hrow⟩
    · first
        | rw [Nat.min_eq_left (by omega)]; exact hp
        | rw [Nat.min_eq_right (by omega)]; exact hp
    · first
        | rw [Nat.max_eq_right (by omega)]; exact hq
        | rw [Nat.max_eq_left (by omega)]; exact hq

/-- **C56** Lifting a graph with edge features to its ring complex and taking the graph of the result gives
the graph back: features of the vertices, edges in both directions, every column with the features its edge had
in the graph, and the label. -/
theorem C56_graph_of_the_ring_complex [DecidableEq F] (g : Gudhi) (hg : g.Ok) (lib : RingLib) (hl : lib.Ok)
    (agg : List F → F) (x : List F) (edges : List (Nat × Nat)) (a : List F) (size : Nat) (y : Option (List L))
    (maxK : Nat) (down initRings : Bool) (he : EdgesIn edges size) (hn : NoLoops edges) (h0 : 0 < size)
    (hx : x.length = size) (hy : ∀ l, y = some l → l.length = 1 ∨ l.length = size)
    (ha : EdgeInput edges (some a)) :
    ∃ comp G, ringComplex g lib agg (some x) edges (some a) size y maxK down true initRings = .ok comp ∧
      convertToGraph comp = .ok G ∧ G.x = some x ∧ G.numNodes = size ∧ G.edgeIndex.Nodup ∧
      (∀ u v, (u, v) ∈ G.edgeIndex ↔ (u, v) ∈ edges ∨ (v, u) ∈ edges) ∧
      (∀ l, y = some l → l.length = 1 → G.y = some l) ∧ (y = none → G.y = none) ∧
      (∀ (i j u v : Nat), edges[i]? = some (u, v) → G.edgeIndex[j]? = some (u, v) ∨ G.edgeIndex[j]? = some (v, u) →
        ∃ attr r, G.edgeAttr = some attr ∧ a[i]? = some r ∧ attr[j]? = some r) := by
  obtain ⟨t, comp, h1, h2, hlift, hvalid, -, -, ⟨-, hlab, -⟩, f0, -, -, f3, -, -⟩ :=
    ring_lifted (agg := agg) (x := x) (y := y) (maxK := maxK)
    (down := down) (initEdges := true) (initRings := initRings) hg hl he hn h0 hx hy ha
  obtain ⟨t', h1', v2, v1, c4, hEm, -⟩ := C23_ring_ids_are_consecutive_and_unique g hg lib hl edges size maxK he h0
  rw [h1] at h1'
  cases h1'
  obtain ⟨t2, comp2, h3, h4, hup⟩ := C25_ring_upper_adjacency g hg lib hl agg x edges (some a) size y maxK
    down true initRings he hn h0 hx hy ha
  rw [h1] at h3
  rw [h2] at h4
  cases h3; cases h4
  obtain ⟨up, sc, u1, u2, u3, u4, u5⟩ := hup 0
  obtain ⟨s1, s2, s3⟩ := skeleton (face := fun s u => s ⊆ u) he v1 v2 c4 hEm
    (fun p u _ => by simp) u3 u4 u5
  have hpos : 0 < t.cells.length := by
    have := hlift.size
    omega
  have hcount : comp.cellsIn 0 = size := by rw [hlift.count 0 hpos, v2]
  obtain ⟨G, g1, g2, g3, g4, g5, g6, -⟩ := C56_graph_of_a_complex comp hvalid (by omega)
  refine ⟨comp, G, h2, g1, by rw [g2, f0], by omega, by rw [g4, u1]; exact s1, ?_, ?_, ?_, ?_⟩
  · intro u v
    rw [g4, u1, s2]
    constructor
    · exact fun h => h.2
    · intro h
      refine ⟨?_, h⟩
      rcases h with h | h
      · exact (noLoops_joined hn h).1
      · exact (noLoops_joined hn h).1.symm
  · intro l e1 e2
    rw [g5, hlab, e1]
    simp [complexLabel, e2]
  · intro e
    rw [g5, hlab, e]
    rfl
  · intro i j u v hi hj
    rw [g4, u1] at hj
    obtain ⟨c, e1, e2⟩ : ∃ c : Nat, sc[j]? = some c ∧ (t.level 1)[c]? = some (canon (u, v)) := by
      rcases hj with h | h
      · exact s3 j u v h
      · obtain ⟨c, e1, e2⟩ := s3 j v u h
        refine ⟨c, e1, ?_⟩
        rw [e2, (canon_eq_iff (v, u) (u, v)).mpr (.inr rfl)]
    have hlen1 := lt_of_get e2
    have hcells : 1 < t.cells.length := by
      by_contra hc
      have hnil : t.level 1 = [] := by
        unfold Tables.level
        rw [List.getElem?_eq_none (by omega)]
        rfl
      rw [hnil] at hlen1
      simp at hlen1
    obtain ⟨rows, r1, r2, r3⟩ := f3 rfl hcells a rfl
    have hne : comp.attr 0 Cochain.upperIndex ≠ none := by
      intro hnone
      rw [hnone] at u1
      rw [← u1] at hj
      simp at hj
    obtain ⟨attr, q1, q2, q3⟩ := g6 rows r1 hne
    have hai : i < a.length := by
      have := lt_of_get hi
      have := (ha a rfl).1
      omega
    refine ⟨attr, a[i], q1, List.getElem?_eq_getElem hai, ?_⟩
    rw [q3 j c (by rw [u2]; exact e1), r3 i (u, v) c hi e2, List.getElem?_eq_getElem hai]

example : (cliqueComplex Fixtures.plainGudhi List.sum (some [1, 2, 3, 4, 5]) Fixtures.kite 5 2 (some [7]) true >>=
      convertToGraph).map (fun G => (G.x, G.edgeIndex, G.edgeAttr, G.y)) =
    .ok (some [1, 2, 3, 4, 5], [(3, 2), (2, 3), (2, 1), (1, 2), (2, 0), (0, 2), (1, 0), (0, 1)],
      some [7, 7, 5, 5, 4, 4, 3, 3], some [7]) := by decide +kernel

example : (ringComplex Fixtures.plainGudhi Fixtures.plainRings List.sum (some [1, 2, 3, 4, 5]) Fixtures.shed
      (some Fixtures.shedAttr) 5 (some [7]) 4 true true false >>= convertToGraph).map
        (fun G => (G.edgeIndex, G.edgeAttr)) =
    .ok ([(4, 3), (3, 4), (4, 2), (2, 4), (3, 2), (2, 3), (2, 1), (1, 2), (3, 0), (0, 3), (1, 0), (0, 1)],
      some [34, 34, 24, 24, 23, 23, 12, 12, 30, 30, 10, 10]) := by decide +kernel

example : (convertToGraph Fixtures.house).map (fun G => (G.numNodes, G.edgeIndex, G.edgeAttr)) =
    .ok (5, [(0, 1), (1, 0), (0, 3), (3, 0), (1, 2), (2, 1), (2, 3), (3, 2), (2, 4), (4, 2), (3, 4), (4, 3)],
      some [1, 1, 4, 4, 2, 2, 3, 3, 6, 6, 5, 5]) := by decide +kernel

end Verif
