import Mathlib.Algebra.Order.Monoid.Submonoid
import Verif.Lemmas.ReachAll
import Verif.Props.RingProcess
import Verif.Props.RingNets

/-!
# C72: how many layers the ring models need
-/

namespace Verif

variable {𝕜 R : Type}

/-- The rows of the ring-transfer graph: the label at node `n/2`, the same elsewhere. -/
theorem transfer_rows {n c k : Nat} (hn : 3 ≤ n) (hk : k < c) {G : RingGraph}
    (h : ringTransferGraph n (oneHot c k) = .ok G) (tensor : List Int → R) :
    (G.x.map tensor).length = n ∧ (G.x.map tensor)[n / 2]? = some (tensor (oneHot c k)) ∧
      (∀ i, i ≠ n / 2 → (G.x.map tensor)[i]? =
        if i < n then some (tensor (if i = 0 then List.replicate c 0 else List.replicate c 1)) else none) := by
  obtain ⟨G', h1, -, -, h2, h3, h4, h5, -⟩ := C48_ring_transfer_graph n c k hn hk
  rw [h] at h1
  cases h1
  refine ⟨by simpa using h2, by rw [List.getElem?_map, h4]; rfl, ?_⟩
  intro i hi
  rw [List.getElem?_map]
  by_cases hin : i < n
  · rw [if_pos hin]
    by_cases h0 : i = 0
    · subst h0; rw [h3, if_pos rfl]; rfl
    · rw [h5 i hin h0 hi, if_neg h0]; rfl
  · rw [if_neg hin, List.getElem?_eq_none (by omega)]; rfl

theorem transfer_agree {n c k k' : Nat} (hn : 3 ≤ n) (hk : k < c) (hk' : k' < c) {G G' : RingGraph}
    (h : ringTransferGraph n (oneHot c k) = .ok G) (h' : ringTransferGraph n (oneHot c k') = .ok G')
    (tensor : List Int → R) (i : Nat) (hi : i ≠ n / 2) : (G.x.map tensor)[i]? = (G'.x.map tensor)[i]? := by
  rw [(transfer_rows hn hk h tensor).2.2 i hi, (transfer_rows hn hk' h' tensor).2.2 i hi]

/-- A stored complex of the ring-transfer dataset, for class `k` of `c`. -/
def Stored [Zero R] (tensor : List Int → R) (n c : Nat) (E : List (List Nat)) (r : List Nat) (k : Nat)
    (comp : Complex R Nat) : Prop :=
  k < c ∧ ∃ G, ringTransferGraph n (oneHot c k) = .ok G ∧ IsDisc comp n E r (G.x.map tensor) ∧ comp.y = some [k]

theorem stored_batch [Field 𝕜] [AddCommMonoid R] [Module 𝕜 R] {tensor : List Int → R} {n c : Nat}
    {E : List (List Nat)} {r : List Nat} (hn : 3 ≤ n) {ks : List Nat} {cs : List (Complex R Nat)}
    (h : List.Forall₂ (Stored tensor n c E r) ks cs) (hne : cs ≠ []) (net : RingNet R (SparseLevel 𝕜 R))
    (hf : net.Fits) (mB : Nat) (out : Nat → R)
    (ho : ∀ k comp, Stored tensor n c E r k comp →
      net.predict SparseLevel.rule (comp.view.upTo mB) (true :: List.replicate (n - 1) false) = [out k]) :
    (fromComplexList cs mB >>= net.forward SparseLevel.forward) = .ok (ks.map out) := by
  have hst : ∀ comp ∈ cs, ∃ k, Stored tensor n c E r k comp := by
    intro comp hc
    obtain ⟨k, -, hk⟩ := forall₂_back h hc
    exact ⟨k, hk⟩
  have hr : ∀ comp ∈ cs, comp.Ready := fun comp hc => by
    obtain ⟨k, -, G, -, hd, -⟩ := hst comp hc
    exact hd.ready
  have hmask : ∀ comp ∈ cs, comp.attr 0 Cochain.mask = some (true :: List.replicate (n - 1) false) := by
    intro comp hc
    obtain ⟨k, -, G, -, hd, -⟩ := hst comp hc
    exact hd.mask
  obtain ⟨preds, h1, h2⟩ := C69_ring_sparse_cin_predictions_do_not_depend_on_the_batch net hf cs hne hr (by
    intro comp hc
    refine ⟨_, hmask comp hc, ?_⟩
    obtain ⟨k, -, G, -, hd, -⟩ := hst comp hc
    rw [hd.lifts.count 0 (by omega)]
    simp [discCells]
    omega) mB
  rw [h1]
  congr 1
  clear h1 hr hne
  induction h with
  | nil => rfl
  | cons hk _ ih =>
    rename_i k comp ks cs _
    rw [List.flatMap_cons, List.map_cons, ih (fun c hc => hst c (by simp [hc])) (fun c hc => hmask c (by simp [hc]))
      (fun c hc => h2 c (by simp [hc]))]
    rw [((h2 comp (by simp)).2 _ (hmask comp (by simp))).2, ho k comp hk]
    rfl

section
variable [Field 𝕜] [AddCommMonoid R] [Module 𝕜 R]

/-- **C72** RingSparseCIN with at most two layers gives all complexes of the ring-transfer dataset on six or more nodes
the same prediction, for all parameters. -/
theorem C72_two_layers_do_not_see_the_label (net : RingNet R (SparseLevel 𝕜 R)) (hf : net.Fits)
    (hl : net.convs.length ≤ 2) (tensor : List Int → R) (n c : Nat) (hn : 6 ≤ n) (E : List (List Nat)) (r : List Nat)
    (hE : E.Perm (cycleEdges n)) (mB : Nat) :
    ∃ out : R, ∀ (ks : List Nat) (cs : List (Complex R Nat)), cs ≠ [] → List.Forall₂ (Stored tensor n c E r) ks cs →
      (fromComplexList cs mB >>= net.forward SparseLevel.forward) = .ok (ks.map fun _ => out) := by
  by_cases hex : ∃ k comp, Stored tensor n c E r k comp
  · obtain ⟨k0, comp0, hs0⟩ := hex
    obtain ⟨hk0, G0, hG0, hd0, -⟩ := hs0
    refine ⟨net.lin1 (rowOf ((((comp0.view.upTo mB).layer (initRules net.initLayer) net.maxDim true).after net.maxDim true
        (net.convs.map (rulesOf SparseLevel.rule))).X 0) 0), ?_⟩
    intro ks cs hne hst
    refine stored_batch (by omega) hst hne net hf mB _ ?_
    rintro k comp ⟨hk, G, hG, hd, -⟩
    rw [net.predict_first SparseLevel.rule (by omega) (by
      simp only [View.upTo, Nat.zero_le, if_true, hd.X0]
      exact hd.size)]
    rw [two_layers hd hd0 hE (fun i hi => transfer_agree (by omega) hk hk0 hG hG0 tensor i hi) _ _ _ _ (by simpa using hl)
      (c := 0) (by unfold toLabel; omega)]
  · refine ⟨0, ?_⟩
    intro ks cs hne hst
    cases hst with
    | nil => exact absurd rfl hne
    | cons h _ => exact absurd ⟨_, _, h⟩ hex

/-- **C72** Without coboundary features (`use_coboundaries=False`, the default of the parser) fewer than `n/2` layers give
all complexes on `n` nodes the same prediction, for all parameters. -/
theorem C72_without_coboundaries_half_the_ring_is_needed (net : RingNet R (SparseLevel 𝕜 R)) (hf : net.Fits)
    (hp : ∀ conv ∈ net.convs, ∀ l, conv[0]? = some l → ∃ f, l.msgUp = .plain f)
    (tensor : List Int → R) (n c : Nat) (hn : 3 ≤ n) (hl : net.convs.length < n / 2) (E : List (List Nat)) (r : List Nat)
    (hE : E.Perm (cycleEdges n)) (mB : Nat) :
    ∃ out : R, ∀ (ks : List Nat) (cs : List (Complex R Nat)), cs ≠ [] → List.Forall₂ (Stored tensor n c E r) ks cs →
      (fromComplexList cs mB >>= net.forward SparseLevel.forward) = .ok (ks.map fun _ => out) := by
  by_cases hex : ∃ k comp, Stored tensor n c E r k comp
  · obtain ⟨k0, comp0, hs0⟩ := hex
    obtain ⟨hk0, G0, hG0, hd0, -⟩ := hs0
    refine ⟨net.lin1 (rowOf ((((comp0.view.upTo mB).layer (initRules net.initLayer) net.maxDim true).after net.maxDim true
        (net.convs.map (rulesOf SparseLevel.rule))).X 0) 0), ?_⟩
    intro ks cs hne hst
    refine stored_batch (by omega) hst hne net hf mB _ ?_
    rintro k comp ⟨hk, G, hG, hd, -⟩
    rw [net.predict_first SparseLevel.rule (by omega) (by
      simp only [View.upTo, Nat.zero_le, if_true, hd.X0]
      exact hd.size)]
    rw [plain_layers hd hd0 hE (fun i hi => transfer_agree (by omega) hk hk0 hG hG0 tensor i hi) _ _ _ _ (by
        intro rules hr x a b
        obtain ⟨conv, hc, rfl⟩ := List.mem_map.mp hr
        cases hc0 : conv[0]? with
        | none => simp only [rulesOf, hc0]
        | some l =>
          obtain ⟨f, hf⟩ := hp conv hc l hc0
          simp only [rulesOf, hc0, SparseLevel.rule, hf, Msg.value])
      (c := 0) (by unfold toLabel; rw [List.length_map]; omega)]
  · refine ⟨0, ?_⟩
    intro ks cs hne hst
    cases hst with
    | nil => exact absurd rfl hne
    | cons h _ => exact absurd ⟨_, _, h⟩ hex

/-- **C72** RingGIN with fewer than `n/2` layers gives all ring-transfer graphs on `n` nodes the same prediction, for all
parameters. -/
theorem C72_gin_needs_half_the_ring (net : RingGIN 𝕜 R) (tensor : List Int → R) (n c : Nat) (hn : 3 ≤ n)
    (hl : net.convs.length + 1 < n / 2) (k k' : Nat) (hk : k < c) (hk' : k' < c) (G G' : RingGraph)
    (h : ringTransferGraph n (oneHot c k) = .ok G) (h' : ringTransferGraph n (oneHot c k') = .ok G') :
    ∃ out : R, net.forward (G.gdata tensor) = .ok [out] ∧ net.forward (G'.gdata tensor) = .ok [out] := by
  have o := onRing_transfer hn hk h
  have o' := onRing_transfer hn hk' h'
  have hrange : ∀ (G : RingGraph), G.OnRing n → ∀ e ∈ (G.gdata tensor).edges,
      e.1 < (G.gdata tensor).x.length ∧ e.2 < (G.gdata tensor).x.length := by
    intro G o e he
    simp only [RingGraph.gdata, List.length_map, o.rows, o.edges] at he ⊢
    obtain ⟨u, v⟩ := e
    have := (mem_ringEdges hn).mp he
    exact ⟨this.1, this.2.1⟩
  have hm : ∀ (G : RingGraph), G.OnRing n → (G.gdata tensor).mask.length = (G.gdata tensor).x.length := by
    intro G o
    simp [RingGraph.gdata, o.mask, o.rows]
    omega
  refine ⟨net.lin1 (ginAfter (G.gdata tensor).edges (rowOf ((G.gdata tensor).x.map net.initLinear)) net.levels 0), ?_, ?_⟩
  · rw [net.forward_ok (hrange G o) (hm G o), net.predict_first (n := n) (by omega) (by simp [RingGraph.gdata, o.rows]) o.mask]
  · rw [net.forward_ok (hrange G' o') (hm G' o'),
      net.predict_first (n := n) (by omega) (by simp [RingGraph.gdata, o'.rows]) o'.mask]
    congr 3
    have he : (G'.gdata tensor).edges = (G.gdata tensor).edges := by simp [RingGraph.gdata, o.edges, o'.edges]
    rw [he]
    refine gin_agree (far := toLabel n) ?_ net.levels _ _ 0 ?_ 0 ?_
    · rintro ⟨u, v⟩ he
      simp only [RingGraph.gdata, o.edges] at he
      have := (onCycle_iff hn).mp ((mem_ringEdges hn).mp he)
      unfold toLabel
      dsimp only
      omega
    · intro i hi
      have : i ≠ n / 2 := by unfold toLabel at hi; omega
      simp only [rowOf, List.getElem?_map, RingGraph.gdata]
      have := transfer_agree hn hk' hk h' h tensor i this
      rw [List.getElem?_map, List.getElem?_map] at this
      rw [this]
    · unfold toLabel
      simp only [RingGIN.levels, List.length_cons]
      omega

end

/-- The rows of the graphs are in `S`. -/
structure RowsIn [AddCommMonoid R] (tensor : List Int → R) (c : Nat) (S : AddSubmonoid R) : Prop where
  zeros : tensor (List.replicate c 0) ∈ S
  ones : tensor (List.replicate c 1) ∈ S
  label : ∀ k, k < c → tensor (oneHot c k) ∈ S

theorem transfer_in [AddCommMonoid R] {tensor : List Int → R} {c : Nat} {S : AddSubmonoid R} (hS : RowsIn tensor c S)
    {n k : Nat} (hn : 3 ≤ n) (hk : k < c) {G : RingGraph} (h : ringTransferGraph n (oneHot c k) = .ok G) (i : Nat) :
    rowOf (G.x.map tensor) i ∈ S := by
  obtain ⟨-, h2, h3⟩ := transfer_rows hn hk h tensor
  unfold rowOf
  by_cases hi : i = n / 2
  · rw [hi, h2]; exact hS.label k hk
  · rw [h3 i hi]
    split
    · rw [Option.getD_some]
      split
      · exact hS.zeros
      · exact hS.ones
    · exact S.zero_mem

section
variable [Field 𝕜] [CharZero 𝕜] [AddCommGroup R] [Module 𝕜 R]

theorem read_off {W : Nat} (hW : 0 < W) (T K : R) : (W : 𝕜)⁻¹ • (W • T + K) + -((W : 𝕜)⁻¹ • K) = T := by
  rw [smul_add, add_neg_cancel_right, ← Nat.cast_smul_eq_nsmul 𝕜, smul_smul, inv_mul_cancel₀, one_smul]
  exact Nat.cast_ne_zero.mpr (by omega)

/-- **C72** With coboundary features three layers are enough for every number of nodes: there is a RingSparseCIN with
three layers whose prediction for each complex of a batch is the one-hot label. The nonlinearity may be any function
that fixes a set of rows closed under addition (such as ReLU and the rows without negative entries). -/
theorem C72_three_layers_read_the_label (S : AddSubmonoid R) (act : R → R) (hact : ∀ x ∈ S, act x = x)
    (tensor : List Int → R) (n c : Nat) (hn : 3 ≤ n) (hS : RowsIn tensor c S) (E : List (List Nat)) (r : List Nat)
    (hE : E.Perm (cycleEdges n)) (hr : r.Perm (List.range n)) :
    ∃ (a : 𝕜) (b : R), ∀ (ks : List Nat) (cs : List (Complex R Nat)), cs ≠ [] →
      List.Forall₂ (Stored tensor n c E r) ks cs →
      (fromComplexList cs 2 >>= (addNet act 3 a b).forward SparseLevel.forward) =
        .ok (ks.map fun k => tensor (oneHot c k)) := by
  by_cases hex : ∃ k comp, Stored tensor n c E r k comp
  · obtain ⟨k0, comp0, hs0⟩ := hex
    obtain ⟨hk0, G0, hG0, hd0, -⟩ := hs0
    have hW := apart_weight hd0 hn hE hr
    generalize hrow : rowOf (((comp0.view.apart n (G0.x.map tensor)).after 2 true
      (List.replicate 3 fun _ => addRule)).X 0) 0 = WK at hW
    refine ⟨(WK.1 : 𝕜)⁻¹, -((WK.1 : 𝕜)⁻¹ • WK.2), ?_⟩
    intro ks cs hne hst
    refine stored_batch hn hst hne _ ⟨by simp [addNet], ?_⟩ 2 _ ?_
    · intro conv hc
      rw [List.eq_of_mem_replicate hc]
      rfl
    rintro k comp ⟨hk, G, hG, hd, -⟩
    have hT := (transfer_rows hn hk hG tensor).2.1
    rw [RingNet.predict_first SparseLevel.rule _ (by omega) (by
      simp only [View.upTo, Nat.zero_le, if_true, hd.X0]
      exact hd.size)]
    rw [hd.view_upTo]
    simp only [addNet]
    rw [init_id]
    have hmap := mapRows_apart hd hT
    have hin : ∀ d i, putBack (tensor (oneHot c k)) (rowOf ((comp.view.apart n (G.x.map tensor)).X d) i) ∈ S := by
      intro d i
      rw [← rowOf_map]
      have : ((comp.view.apart n (G.x.map tensor)).X d).map (putBack (tensor (oneHot c k))) = comp.view.X d :=
        congrFun (congrArg View.X hmap) d
      rw [this]
      match d with
      | 0 => rw [hd.X0]; exact transfer_in hS hn hk hG i
      | 1 =>
        rw [hd.X1, rowOf, List.getElem?_replicate]
        split <;> simp
      | 2 =>
        rw [hd.X2, rowOf]
        cases i <;> simp
      | d + 3 => rw [hd.X3 (by omega)]; simp [rowOf]
    have hafter := addLevel_after (𝕜 := 𝕜) S hact (putBack (tensor (oneHot c k))) 3 _ hin
    rw [hmap] at hafter
    rw [hafter]
    have hx : rowOf ((((comp.view.apart n (G.x.map tensor)).after 2 true (List.replicate 3 fun _ => addRule)).X 0).map
        (putBack (tensor (oneHot c k)))) 0 = putBack (tensor (oneHot c k)) WK := by
      rw [rowOf_map, apart_after hd hd0 (fun i hi => transfer_agree hn hk hk0 hG hG0 tensor i hi), hrow]
    show [(WK.1 : 𝕜)⁻¹ • rowOf ((((comp.view.apart n (G.x.map tensor)).after 2 true (List.replicate 3 fun _ => addRule)).X 0).map
        (putBack (tensor (oneHot c k)))) 0 + _] = _
    rw [hx]
    congr 1
    exact read_off hW _ _
  · refine ⟨0, 0, ?_⟩
    intro ks cs hne hst
    cases hst with
    | nil => exact absurd rfl hne
    | cons h _ => exact absurd ⟨_, _, h⟩ hex

/-- **C72** For RingGIN `n/2` layers are enough: there are parameters with which the prediction for every ring-transfer
graph on `n` nodes is the one-hot label. -/
theorem C72_gin_with_half_the_ring_reads_the_label (S : AddSubmonoid R) (act : R → R) (hact : ∀ x ∈ S, act x = x)
    (tensor : List Int → R) (n c : Nat) (hn : 3 ≤ n) (hS : RowsIn tensor c S) :
    ∃ (net : RingGIN 𝕜 R), net.convs.length + 1 = n / 2 ∧ (∃ a b, net = addGIN act (n / 2 - 1) a b) ∧
      ∀ (k : Nat) (G : RingGraph), k < c → ringTransferGraph n (oneHot c k) = .ok G →
        net.forward (G.gdata tensor) = .ok [tensor (oneHot c k)] := by
  by_cases hc : 0 < c
  · obtain ⟨G0, hG0, -⟩ := C48_ring_transfer_graph n c 0 hn hc
    have hW : 0 < (sumAfter (ringEdges n) (rowOf (apart n (G0.x.map tensor))) (n / 2) 0).1 := by
      have h := sumAfter_map (AddMonoidHom.fst Nat R) (ringEdges n) (n / 2) (rowOf (apart n (G0.x.map tensor))) 0
      have h2 := sumAfter_reach (n := n) (edges := ringEdges n) (n / 2) (by
        intro c hc h0
        unfold toLabel at h0
        by_cases hlt : c < n / 2
        · refine ⟨c + 1, by omega, (mem_ringEdges hn).mpr ((onCycle_iff hn).mpr (by omega)), by unfold toLabel; omega⟩
        · refine ⟨c - 1, by omega, (mem_ringEdges hn).mpr ((onCycle_iff hn).mpr (by omega)), by unfold toLabel; omega⟩)
        (fun c => AddMonoidHom.fst Nat R (rowOf (apart n (G0.x.map tensor)) c)) 0 (by
          intro c hc h0
          have : c = n / 2 := by unfold toLabel at h0; omega
          unfold apart
          rw [rowOf_range _ hc, if_pos this]
          exact Nat.one_pos) 0 (by omega) (by unfold toLabel; omega)
      rw [h] at h2
      exact h2
    generalize hrow : sumAfter (ringEdges n) (rowOf (apart n (G0.x.map tensor))) (n / 2) 0 = WK at hW
    refine ⟨addGIN act (n / 2 - 1) (WK.1 : 𝕜)⁻¹ (-((WK.1 : 𝕜)⁻¹ • WK.2)), ?_, ⟨_, _, rfl⟩, ?_⟩
    · simp [addGIN]; omega
    intro k G hk hG
    have o := onRing_transfer hn hk hG
    obtain ⟨hlen, hT, -⟩ := transfer_rows hn hk hG tensor
    rw [RingGIN.forward_ok, RingGIN.predict_first (n := n) _ (by omega) (by simp [RingGraph.gdata, o.rows]) o.mask]
    · have hl : (addGIN (𝕜 := 𝕜) act (n / 2 - 1) (WK.1 : 𝕜)⁻¹ (-((WK.1 : 𝕜)⁻¹ • WK.2))).levels.length = n / 2 := by
        simp [RingGIN.levels, addGIN]; omega
      rw [addGIN_after S _ _ (by
        intro l hl
        simp only [RingGIN.levels, addGIN, List.mem_cons] at hl
        rcases hl with rfl | hl
        · exact ⟨rfl, fun x hx => by simp only [hact x hx]⟩
        · rw [List.eq_of_mem_replicate hl]
          exact ⟨rfl, hact⟩) _ (by
        intro i
        simp only [addGIN, List.map_id]
        exact transfer_in hS hn hk hG i), hl]
      have hrows : rowOf ((G.gdata tensor).x.map (addGIN (𝕜 := 𝕜) act (n / 2 - 1) (WK.1 : 𝕜)⁻¹
          (-((WK.1 : 𝕜)⁻¹ • WK.2))).initLinear) =
          fun i => putBack (tensor (oneHot c k)) (rowOf (apart n (G0.x.map tensor)) i) := by
        funext i
        rw [← rowOf_map, apart_congr (x' := G.x.map tensor) (fun i hi => transfer_agree hn hc hk hG0 hG tensor i hi),
          putBack_apart hlen hT]
        simp [addGIN, RingGraph.gdata]
      rw [hrows, sumAfter_map]
      simp only [RingGraph.gdata, o.edges]
      rw [hrow]
      exact congrArg (fun y => Except.ok [y]) (read_off hW _ _)
    · intro e he
      simp only [RingGraph.gdata, List.length_map, o.rows, o.edges] at he ⊢
      obtain ⟨u, v⟩ := e
      have := (mem_ringEdges hn).mp he
      exact ⟨this.1, this.2.1⟩
    · simp [RingGraph.gdata, o.mask, o.rows]
      omega
  · refine ⟨addGIN act (n / 2 - 1) 0 0, by simp [addGIN]; omega, ⟨_, _, rfl⟩, ?_⟩
    intro k G hk
    omega

end

theorem load_classes {n train test c : Nat} {graphs : List RingGraph} {ids : List Nat × List Nat} (hn : 3 ≤ n)
    (h : loadRingTransfer n train test c = .ok (graphs, ids)) :
    ∃ ks : List Nat, List.Forall₂ (fun k (G : RingGraph) => k < c ∧ ringTransferGraph n (oneHot c k) = .ok G ∧ G.y = [k])
      ks graphs := by
  have hall : ∀ G ∈ graphs, ∃ k, k < c ∧ ringTransferGraph n (oneHot c k) = .ok G ∧ G.y = [k] := by
    have key : ∀ (s : Nat) (ds : List RingGraph), ringTransferDataset n c s = .ok ds → ∀ G ∈ ds, ∃ k, k < c ∧
        ringTransferGraph n (oneHot c k) = .ok G ∧ G.y = [k] := by
      intro s ds h G hG
      unfold ringTransferDataset at h
      obtain ⟨q, -, h⟩ := bind_eq_ok.mp h
      obtain ⟨i, -, hi⟩ := forall₂_back (mapE_eq_ok_iff.mp h) hG
      obtain ⟨-, h1, h2⟩ := sample_eq_ok.mp hi
      exact ⟨_, h1, h2, (graph_y h1 h2).2⟩
    unfold loadRingTransfer at h
    obtain ⟨a, ha, h⟩ := bind_eq_ok.mp h
    obtain ⟨b, hb, h⟩ := bind_eq_ok.mp h
    cases ok_inj.mp h
    intro G hG
    rcases List.mem_append.mp hG with h1 | h1
    · exact key _ _ ha G h1
    · exact key _ _ hb G h1
  clear h
  induction graphs with
  | nil => exact ⟨[], .nil⟩
  | cons G gs ih =>
    obtain ⟨ks, hks⟩ := ih fun G hG => hall G (List.mem_cons_of_mem _ hG)
    obtain ⟨k, hk⟩ := hall G (by simp)
    exact ⟨k :: ks, .cons hk hks⟩

/-- **C72** The theorems above are about the complexes that are stored: processing the ring-transfer dataset gives such a
complex for each graph, with the label of the graph. -/
theorem C72_processed_complexes_are_stored [DecidableEq R] [Zero R] (g : Gudhi) (hg : g.Ok) (lib : RingLib) (hl : lib.Ok)
    (agg : List R → R) (width : R → Nat) (w : Nat)
    (hagg : ∀ l : List R, l ≠ [] → (∀ r ∈ l, width r = w) → width (agg l) = w)
    (tensor : List Int → R) (hw : ∀ row, width (tensor row) = w) (n train test c : Nat) (hn : 3 ≤ n)
    (graphs : List RingGraph) (ids : List Nat × List Nat) (h : loadRingTransfer n train test c = .ok (graphs, ids)) :
    ∃ (E : List (List Nat)) (r : List Nat) (comps : List (Complex R Nat)) (ks : List Nat),
      E.Perm (cycleEdges n) ∧ r.Perm (List.range n) ∧
      ringTransferProcess g lib agg width tensor n train test c = .ok (comps, ids) ∧
      graphs.map (·.y) = ks.map (fun k => [k]) ∧ List.Forall₂ (Stored tensor n c E r) ks comps := by
  obtain ⟨E, r, comps, h1, h2, h3, h4⟩ := C70_ring_transfer_complexes g hg lib hl agg width w hagg tensor hw n train test c
    hn graphs ids h
  obtain ⟨ks, h5⟩ := load_classes hn h
  refine ⟨E, r, comps, ks, h1, h2, h3, ?_, ?_⟩
  · clear h h3 h4
    induction h5 with
    | nil => rfl
    | cons hk _ ih => rw [List.map_cons, List.map_cons, hk.2.2, ih]
  · clear h h3
    induction h5 generalizing comps with
    | nil => cases h4; exact .nil
    | cons hk _ ih =>
      cases h4 with
      | cons hd hrest =>
        refine .cons ⟨hk.1, _, hk.2.1, hd.1, ?_⟩ (ih _ hrest)
        rw [hd.2.1, hk.2.2]

/-! ### Concrete cases -/

section Examples
open Fixtures

/-- A row read as a number. -/
def asNumber (row : List Int) : ℚ := ((row.foldl (2 * · + ·) 0 : Int) : ℚ)

/-- The hypotheses on rows and nonlinearity: ReLU fixes the numbers from zero on. -/
example : (∀ x ∈ AddSubmonoid.nonneg ℚ, max x 0 = x) ∧ RowsIn asNumber 2 (AddSubmonoid.nonneg ℚ) := by
  refine ⟨fun x hx => max_eq_left hx, ⟨?_, ?_, ?_⟩⟩
  · show (0 : ℚ) ≤ asNumber [0, 0]; decide +kernel
  · show (0 : ℚ) ≤ asNumber [1, 1]; decide +kernel
  · intro k hk
    show (0 : ℚ) ≤ asNumber (oneHot 2 k)
    match k, hk with
    | 0, _ => decide +kernel
    | 1, _ => decide +kernel

/-- Stored complexes exist, for each class. -/
example : ∃ E r comps, E.Perm (cycleEdges 6) ∧ List.Forall₂ (Stored asNumber 6 2 E r) [0, 1] comps := by
  obtain ⟨a, ha⟩ := (C49_generation_succeeds_iff 6 2 2).mpr (by decide)
  obtain ⟨b, hb⟩ := (C49_generation_succeeds_iff 6 2 0).mpr (by decide)
  have h : loadRingTransfer 6 2 0 2 = .ok (a ++ b, (List.range a.length, List.range' a.length b.length)) := by
    unfold loadRingTransfer
    rw [ha, ok_bind, hb, ok_bind]
    rfl
  obtain ⟨E, r, comps, ks, h1, -, -, h4, h5⟩ := C72_processed_complexes_are_stored plainGudhi plainGudhi_ok plainRings
    plainRings_ok List.sum (fun _ => 1) 1 (fun _ _ _ => rfl) asNumber (fun _ => rfl) 6 2 0 2 (by omega) _ _ h
  have hy : (a ++ b).map (·.y) = [[0], [1]] := by
    have e1 : (ringTransferDataset 6 2 2).map (·.map (·.y)) = .ok [[0], [1]] := by decide +kernel
    have e2 : (ringTransferDataset 6 2 0).map (·.map (·.y)) = .ok [] := by decide +kernel
    rw [ha] at e1
    rw [hb] at e2
    have e1' : a.map (·.y) = [[0], [1]] := ok_inj.mp e1
    have e2' : b.map (·.y) = [] := ok_inj.mp e2
    rw [List.map_append, e1', e2']
    rfl
  rw [hy] at h4
  have : ks = [0, 1] := by
    match ks, h4 with
    | [], h4 => simp at h4
    | [_], h4 => simp at h4
    | [a, b], h4 => simp at h4; rw [← h4.1, ← h4.2]
    | _ :: _ :: _ :: _, h4 => simp at h4
  exact ⟨E, r, comps, h1, this ▸ h5⟩

end Examples

end Verif
