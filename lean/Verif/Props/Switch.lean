import Verif.Model.Cluster
import Verif.Lemmas.Switch
import Verif.Props.CellNet
import Verif.Props.EdgeNet

/-!
# C94: the switch for lower adjacencies
-/

namespace Verif

variable {𝕜 R F L : Type}

/-- **C94** What the switch `include_down_adj` does to a clique complex: whenever a graph is lifted with the switch on,
it is also lifted with the switch off, to the same complex without lower adjacencies. -/
theorem C94_clique_switch (g : Gudhi) (agg : List F → F) (x : Option (List F)) (edges : List (Nat × Nat)) (size k : Nat)
    (y : Option (List L)) (comp : Complex F L) (h : cliqueComplex g agg x edges size k y true = .ok comp) :
    cliqueComplex g agg x edges size k y false = .ok comp.forgetLower := cliqueComplex_forget h

/-- **C94** The same for ring complexes. -/
theorem C94_ring_switch [DecidableEq F] (g : Gudhi) (lib : RingLib) (agg : List F → F) (x : Option (List F))
    (edges : List (Nat × Nat)) (attr : Option (List F)) (size : Nat) (y : Option (List L)) (maxK : Nat)
    (initEdges initRings : Bool) (comp : Complex F L)
    (h : ringComplex g lib agg x edges attr size y maxK true initEdges initRings = .ok comp) :
    ringComplex g lib agg x edges attr size y maxK false initEdges initRings = .ok comp.forgetLower :=
  ringComplex_forget h

/-- **C94** Converted datasets: the same complexes without lower adjacencies, with the same dimension and numbers of
features. -/
theorem C94_datasets_switch [DecidableEq F] [DecidableEq L] (g : Gudhi) (lib : RingLib) (agg : List F → F)
    (width : F → Nat) (dataset : List (GraphData F L)) (k maxK : Nat) (initEdges initRings : Bool) (r : Converted F L) :
    (convertWithGudhi g agg width dataset k true = .ok r →
      convertWithGudhi g agg width dataset k false = .ok { r with complexes := r.complexes.map Complex.forgetLower }) ∧
    (convertWithRings g lib agg width dataset maxK true initEdges initRings = .ok r →
      convertWithRings g lib agg width dataset maxK false initEdges initRings =
        .ok { r with complexes := r.complexes.map Complex.forgetLower }) := by
  constructor
  · intro h
    obtain ⟨h1, h2, h3⟩ := (C35_clique_conversion ..).mp h
    refine (C35_clique_conversion ..).mpr ⟨forall₂_map_right' h1 fun G c hc => cliqueComplex_forget hc, h2.forget, ?_⟩
    intro c hc
    obtain ⟨c0, hc0, rfl⟩ := List.mem_map.mp hc
    exact h3 c0 hc0
  · intro h
    obtain ⟨h1, h2, h3, h4⟩ := (C35_ring_conversion ..).mp h
    refine (C35_ring_conversion ..).mpr ⟨forall₂_map_right' h1 fun G c hc => ringComplex_forget hc,
      forall₂_map_right' h2 fun G c hc => hc.forget, h3.forget, ?_⟩
    intro c hc
    obtain ⟨c0, hc0, rfl⟩ := List.mem_map.mp hc
    exact h4 c0 hc0

section

variable [Field 𝕜] [AddCommMonoid R] [Module 𝕜 R]

/-- **C94** SparseCIN and CIN++ predict the same with and without lower adjacencies. -/
theorem C94_cell_networks_ignore_the_switch (sparse : SparseNet R (SparseLevel 𝕜 R)) (hs : sparse.Fits)
    (pp : SparseNet R (PPLevel 𝕜 R)) (hp : pp.Fits) (cs : List (Complex R L)) (hne : cs ≠ [])
    (hr : ∀ c ∈ cs, c.Ready) (h0 : ∀ c ∈ cs, 0 < c.cellsIn 0) (mB : Nat) :
    (∃ preds, (fromComplexList cs mB >>= sparse.forward 𝕜 SparseLevel.forward) = .ok preds ∧
      (fromComplexList (cs.map Complex.forgetLower) mB >>= sparse.forward 𝕜 SparseLevel.forward) = .ok preds) ∧
    ∃ preds, (fromComplexList cs mB >>= pp.forward 𝕜 PPLevel.forward) = .ok preds ∧
      (fromComplexList (cs.map Complex.forgetLower) mB >>= pp.forward 𝕜 PPLevel.forward) = .ok preds := by
  have hne' : cs.map Complex.forgetLower ≠ [] := by simpa using hne
  have hr' : ∀ c ∈ cs.map Complex.forgetLower, c.Ready := by
    intro c hc
    obtain ⟨c0, h1, rfl⟩ := List.mem_map.mp hc
    exact (hr c0 h1).forget
  have h0' : ∀ c ∈ cs.map Complex.forgetLower, 0 < c.cellsIn 0 := by
    intro c hc
    obtain ⟨c0, h1, rfl⟩ := List.mem_map.mp hc
    rw [(hr c0 h1).valid.cellsIn_forget]
    exact h0 c0 h1
  refine ⟨⟨_, SparseNet.forward_all (realises_sparse false) hs hne hr h0 mB, ?_⟩,
    ⟨_, SparseNet.forward_all (realises_pp false) hp hne hr h0 mB, ?_⟩⟩
  · rw [SparseNet.forward_all (realises_sparse false) hs hne' hr' h0' mB, ok_inj, List.map_map]
    exact List.map_congr_left fun c _ => SparseNet.predict_forgets (fun _ _ _ _ _ _ => rfl) sparse c mB
  · rw [SparseNet.forward_all (realises_pp false) hp hne' hr' h0' mB, ok_inj, List.map_map]
    exact List.map_congr_left fun c _ => SparseNet.predict_forgets (fun _ _ _ _ _ _ => rfl) pp c mB

/-- **C94** The same for the networks that embed the features first; `embed_cin++` and `ogb_embed_cin++` are among
them, for which the experiments insist on the switch. -/
theorem C94_embedding_networks_ignore_the_switch (sparse : EmbedNet R (SparseLevel 𝕜 R)) (hs : sparse.net.Fits)
    (hrs : ∀ l l' : List R, l.Perm l' → sparse.init.reduce l = sparse.init.reduce l')
    (pp : EmbedNet R (PPLevel 𝕜 R)) (hp : pp.net.Fits)
    (hrp : ∀ l l' : List R, l.Perm l' → pp.init.reduce l = pp.init.reduce l')
    (cs : List (Complex R L)) (hne : cs ≠ []) (h : ∀ c ∈ cs, sparse.init.Takes c) (h' : ∀ c ∈ cs, pp.init.Takes c)
    (hu : UniformFeatures cs) (mB : Nat) (hm : ∀ c ∈ cs, min c.dimension mB ≤ sparse.net.maxDim)
    (hm' : ∀ c ∈ cs, min c.dimension mB ≤ pp.net.maxDim) :
    (∃ preds, (fromComplexList cs mB >>= sparse.forward 𝕜 SparseLevel.forward) = .ok preds ∧
      (fromComplexList (cs.map Complex.forgetLower) mB >>= sparse.forward 𝕜 SparseLevel.forward) = .ok preds) ∧
    ∃ preds, (fromComplexList cs mB >>= pp.forward 𝕜 PPLevel.forward) = .ok preds ∧
      (fromComplexList (cs.map Complex.forgetLower) mB >>= pp.forward 𝕜 PPLevel.forward) = .ok preds := by
  have hne' : cs.map Complex.forgetLower ≠ [] := by simpa using hne
  have htakes : ∀ (l : EmbedInit R), (∀ c ∈ cs, l.Takes c) → ∀ c ∈ cs.map Complex.forgetLower, l.Takes c := by
    intro l hl c hc
    obtain ⟨c0, h1, rfl⟩ := List.mem_map.mp hc
    exact (hl c0 h1).forget
  have hdims : ∀ m, (∀ c ∈ cs, min c.dimension mB ≤ m) → ∀ c ∈ cs.map Complex.forgetLower, min c.dimension mB ≤ m := by
    intro m hl c hc
    obtain ⟨c0, h1, rfl⟩ := List.mem_map.mp hc
    exact hl c0 h1
  refine ⟨⟨_, EmbedNet.forward_all (realises_sparse false) hs hrs hne h hu hm, ?_⟩,
    ⟨_, EmbedNet.forward_all (realises_pp false) hp hrp hne h' hu hm', ?_⟩⟩
  · rw [EmbedNet.forward_all (realises_sparse false) hs hrs hne' (htakes _ h) hu.forget (hdims _ hm), ok_inj, List.map_map]
    exact List.map_congr_left fun c hc =>
      EmbedNet.predict_forgets (fun _ _ _ _ _ _ => rfl) sparse (h c hc).valid mB
  · rw [EmbedNet.forward_all (realises_pp false) hp hrp hne' (htakes _ h') hu.forget (hdims _ hm'), ok_inj, List.map_map]
    exact List.map_congr_left fun c hc =>
      EmbedNet.predict_forgets (fun _ _ _ _ _ _ => rfl) pp (h' c hc).valid mB

end

/-- **C94** `ClusterDataset`: on graphs that can be lifted, the dataset is constructed; its ids are those of the three
splits one after the other. The complexes of the training and validation graphs have no lower adjacencies, those of the
test graphs are lifted with them: a graph among the training graphs and the test graphs gets two complexes, of which
the first is the second without its lower adjacencies. -/
theorem C94_cluster_splits_differ (g : Gudhi) (hg : g.Ok) (agg : List F → F) (width : F → Nat) (w : Nat)
    (hagg : ∀ l : List F, l ≠ [] → (∀ r ∈ l, width r = w) → width (agg l) = w) (train val test : List (GraphData F L))
    (maxDim : Nat) (hk : 1 ≤ maxDim)
    (hd : ∀ data ∈ train ++ val ++ test, ∃ x, data.Ok x ∧ ∀ r ∈ x, width r = w) :
    ∃ a b c, clusterDataset g agg width train val test maxDim = .ok (a ++ b ++ c,
        ⟨some (List.range' 0 train.length), some (List.range' train.length val.length),
          some (List.range' (train.length + val.length) test.length)⟩) ∧
      a.length = train.length ∧ b.length = val.length ∧ c.length = test.length ∧
      (∀ comp ∈ a ++ b, ∀ d, comp.attr d Cochain.lowerIndex = none) ∧
      List.Forall₂ (fun (G : GraphData F L) comp =>
        cliqueComplex g agg G.x G.edgeIndex G.numNodes maxDim G.y true = .ok comp) test c ∧
      ∀ (i j : Nat) (G : GraphData F L) (comp comp' : Complex F L), (train ++ val)[i]? = some G → test[j]? = some G →
        (a ++ b)[i]? = some comp → c[j]? = some comp' → comp = comp'.forgetLower := by
  have hsub : ∀ ds : List (GraphData F L), (∀ data ∈ ds, data ∈ train ++ val ++ test) → ∀ down,
      ∃ r, convertWithGudhi g agg width ds maxDim down = .ok r ∧ r.complexes.length = ds.length ∧
        List.Forall₂ (fun (G : GraphData F L) comp =>
          cliqueComplex g agg G.x G.edgeIndex G.numNodes maxDim G.y down = .ok comp) ds r.complexes := by
    intro ds hds down
    obtain ⟨r, h1, h2, -⟩ := C35_clique_datasets_convert g hg agg width w hagg ds maxDim hk down
      (fun data hm => hd data (hds data hm))
    exact ⟨r, h1, h2, ((C35_clique_conversion ..).mp h1).1⟩
  obtain ⟨ra, a1, a2, a3⟩ := hsub train (by simp +contextual) false
  obtain ⟨rb, b1, b2, b3⟩ := hsub val (by simp +contextual) false
  obtain ⟨rc, c1, c2, c3⟩ := hsub test (by simp +contextual) true
  have ab3 := List.rel_append a3 b3
  have hfree : ∀ (G : GraphData F L) (comp : Complex F L),
      cliqueComplex g agg G.x G.edgeIndex G.numNodes maxDim G.y false = .ok comp → comp = comp.forgetLower := by
    intro G comp h
    exact ok_inj.mp (h.symm.trans (cliqueComplex_forget h))
  refine ⟨ra.complexes, rb.complexes, rc.complexes, ?_, a2, b2, c2, ?_, c3, ?_⟩
  · unfold clusterDataset clusterProcess
    simp only [a1, b1, c1, ok_bind, pure_eq_ok]
    simp [joinSplits, addSplit, getAt, a2, b2, c2, List.append_assoc]
    omega
  · intro comp hc d
    obtain ⟨G, -, h⟩ := forall₂_source ab3 hc
    rw [hfree G comp h]
    exact forgetLower_lower comp d
  · intro i j G comp comp' h1 h2 h3 h4
    have e1 := (List.forall₂_iff_get.mp ab3).2 i (lt_of_get h1) (lt_of_get h3)
    have e2 := (List.forall₂_iff_get.mp c3).2 j (lt_of_get h2) (lt_of_get h4)
    rw [List.getElem?_eq_getElem (lt_of_get h1), Option.some.injEq] at h1
    rw [List.getElem?_eq_getElem (lt_of_get h2), Option.some.injEq] at h2
    rw [List.getElem?_eq_getElem (lt_of_get h3), Option.some.injEq] at h3
    rw [List.getElem?_eq_getElem (lt_of_get h4), Option.some.injEq] at h4
    simp only [List.get_eq_getElem] at e1 e2
    rw [h1, h3] at e1
    rw [h2, h4] at e2
    exact ok_inj.mp (e1.symm.trans (cliqueComplex_forget e2))

section Cases
open Fixtures

/-- **C94** CIN, on the other hand, sees the switch: there are a network and a graph for which it predicts differently on
the two complexes. -/
theorem C94_cin_sees_the_switch : ∃ (net : CINNet ℚ (CINLevel ℚ ℚ)) (edges : List (Nat × Nat)) (comp : Complex ℚ Nat),
    net.Fits ∧ cliqueComplex plainGudhi List.sum (some [1, 2, 3]) edges 3 2 none true = .ok comp ∧ comp.Ready ∧
      (fromComplexList [comp] 2 >>= net.forward ℚ CINLevel.forward) ≠
        (fromComplexList [comp.forgetLower] 2 >>= net.forward ℚ CINLevel.forward) := by
  have hE : EdgesIn [(0, 1), (1, 2)] 3 := by unfold EdgesIn; decide
  obtain ⟨⟨comp, h1, h2, -⟩, -⟩ := C28_lifting_succeeds (L := Nat) plainGudhi plainGudhi_ok List.sum [(1 : ℚ), 2, 3]
    [(0, 1), (1, 2)] 3 2 none true hE (by decide) rfl (by simp)
  refine ⟨cinNetQ, [(0, 1), (1, 2)], comp, cinNetQ_fits, h1, h2, ?_⟩
  have key : (cliqueComplex (L := Nat) plainGudhi List.sum (some [(1 : ℚ), 2, 3]) [(0, 1), (1, 2)] 3 2 none true >>=
      fun comp => fromComplexList [comp] 2 >>= cinNetQ.forward ℚ CINLevel.forward) ≠
      (cliqueComplex (L := Nat) plainGudhi List.sum (some [(1 : ℚ), 2, 3]) [(0, 1), (1, 2)] 3 2 none true >>=
      fun comp => fromComplexList [comp.forgetLower] 2 >>= cinNetQ.forward ℚ CINLevel.forward) := by decide +kernel
  rw [h1, ok_bind, ok_bind] at key
  exact key

example : (cliqueComplex plainGudhi List.sum (some [(1 : Nat), 2, 3, 4, 5]) [(0, 1), (1, 2), (2, 0), (2, 3)] 5 2
      (some [7]) true).map (fun c => (c.attr 1 Cochain.lowerIndex).isSome) = .ok true ∧
    (cliqueComplex plainGudhi List.sum (some [(1 : Nat), 2, 3, 4, 5]) [(0, 1), (1, 2), (2, 0), (2, 3)] 5 2
      (some [7]) false).map (fun c => (c.attr 1 Cochain.lowerIndex).isSome) = .ok false := by
  constructor <;> decide +kernel

example : (ringComplex plainGudhi plainRings List.sum (some [(1 : Nat), 2, 3, 4]) [(0, 1), (1, 2), (2, 0), (2, 3)] none 4
      (some [7]) 4 true).map (fun c => (c.attr 1 Cochain.lowerIndex).isSome) = .ok true ∧
    (ringComplex plainGudhi plainRings List.sum (some [(1 : Nat), 2, 3, 4]) [(0, 1), (1, 2), (2, 0), (2, 3)] none 4
      (some [7]) 4 false).map (fun c => (c.attr 1 Cochain.lowerIndex).isSome) = .ok false := by
  constructor <;> decide +kernel

example : ((convertWithGudhi plainGudhi addRows List.length [dotData, shedData] 2 true).map fun r =>
      r.complexes.map fun c => (c.attr 1 Cochain.lowerIndex).isSome) = .ok [false, true] ∧
    ((convertWithRings plainGudhi plainRings addRows List.length [dotData, shedData] 4 true).map fun r =>
      r.complexes.map fun c => (c.attr 1 Cochain.lowerIndex).isSome) = .ok [false, true] := by
  constructor <;> decide +kernel

example := C94_cell_networks_ignore_the_switch sparseNetQ sparseNetQ_fits ppNetQ ppNetQ_fits [segQ, dotsQ, houseQ]
  (by simp) (by simpa using ⟨segQ_ready, dotsQ_ready, houseQ_ready⟩) (by decide) 2

example := C94_embedding_networks_ignore_the_switch noRingsQ sparseNetQ_fits initQ_reduce embedPPQ ppNetQ_fits initQ_reduce
  [segQ, bareQ] (by simp) (by simpa using ⟨segQ_takes, bareQ_takes⟩) (by simpa using ⟨segQ_takes, bareQ_takes⟩)
  (uniform_of_dec (by decide) (by decide)) 2 (by decide) (by decide)

/-- The batch has lower adjacencies. -/
example : (bareQ.attr 1 Cochain.lowerIndex).isSome ∧ (houseQ.attr 1 Cochain.lowerIndex).isSome := by decide

example := C94_cluster_splits_differ plainGudhi plainGudhi_ok addRows List.length 1 (fun _ _ _ => rfl)
  [dotData, shedData] [dotData] [shedData] 2 (by decide) (by
    intro data hd
    simp only [List.cons_append, List.nil_append, List.mem_cons, List.not_mem_nil, or_false] at hd
    rcases hd with rfl | rfl | rfl | rfl
    · exact ⟨_, dotData_ok, by decide⟩
    · exact ⟨_, shedData_ok, by decide⟩
    · exact ⟨_, dotData_ok, by decide⟩
    · exact ⟨_, shedData_ok, by decide⟩)

/-- The shed is in the training split and in the test split, with two different complexes. -/
example : ((clusterDataset plainGudhi addRows List.length [dotData, shedData] [dotData] [shedData] 2).map fun r =>
    (r.1.map fun c => (c.attr 1 Cochain.lowerIndex).isSome, r.2.train, r.2.valid, r.2.test)) =
    .ok ([false, false, false, true], some [0, 1], some [2], some [3]) := by decide +kernel

end Cases

end Verif
