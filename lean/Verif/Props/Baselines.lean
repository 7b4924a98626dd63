import Verif.Lemmas.Baselines
import Verif.Props.Regular

/-!
# C92: the baselines on complexes
-/

namespace Verif

variable {𝕜 R L : Type} [Field 𝕜] [AddCommGroup R] [Module 𝕜 R]

/-! ### `MessagePassingAgnostic` -/

/-- **C92** `MessagePassingAgnostic` gives one prediction per complex of the batch, from the features of its cells up to
the dimension of the batch. -/
theorem C92_agnostic_predictions (net : AgnosticNet R) (hn : net.Fits) (cs : List (Complex R L)) (hne : cs ≠ [])
    (hr : ∀ c ∈ cs, c.Ready) (h0 : ∀ c ∈ cs, 0 < c.cellsIn 0) (mB : Nat) :
    (fromComplexList cs mB >>= net.forward 𝕜) = .ok (cs.map fun c => net.predict 𝕜 (c.view.upTo mB).X) :=
  AgnosticNet.forward_all hn hne hr h0 mB

/-- **C92** It is what its name says: batches of complexes whose cells have, in each dimension and in whatever order, the
same features get the same predictions, whatever the adjacencies and boundaries. -/
theorem C92_agnostic_ignores_incidences (net : AgnosticNet R) (hn : net.Fits) (cs ds : List (Complex R L)) (hne : cs ≠ [])
    (hr : ∀ c ∈ cs ++ ds, c.Ready) (h0 : ∀ c ∈ cs ++ ds, 0 < c.cellsIn 0) (mB : Nat)
    (hsame : List.Forall₂ (fun c d => ∀ i ≤ min net.maxDim mB, (c.view.X i).Perm (d.view.X i)) cs ds) :
    ∃ ps, (fromComplexList cs mB >>= net.forward 𝕜) = .ok ps ∧ (fromComplexList ds mB >>= net.forward 𝕜) = .ok ps := by
  have hne' : ds ≠ [] := by
    rintro rfl
    cases hsame
    exact hne rfl
  refine ⟨_, AgnosticNet.forward_all hn hne (fun c hc => hr c (List.mem_append_left _ hc))
    (fun c hc => h0 c (List.mem_append_left _ hc)) mB, ?_⟩
  rw [AgnosticNet.forward_all hn hne' (fun c hc => hr c (List.mem_append_right _ hc))
    (fun c hc => h0 c (List.mem_append_right _ hc)) mB, ok_inj]
  refine (map_of_forall₂ hsame fun c d h => ?_)
  refine AgnosticNet.predict_perm net fun i hi => ?_
  unfold View.upTo
  dsimp only
  split
  · exact (h i (by omega)).symm
  · exact .refl _

/-- **C92** SparseCIN can do what it does: for every `MessagePassingAgnostic` there is a SparseCIN of one layer with the
same predictions on all batches. -/
theorem C92_sparse_can_be_agnostic (net : AgnosticNet R) (hn : net.Fits) :
    ∃ sparse : SparseNet R (SparseLevel 𝕜 R), sparse.Fits ∧ sparse.convs.length = 1 ∧
      ∀ (cs : List (Complex R L)) (_ : cs ≠ []) (_ : ∀ c ∈ cs, c.Ready) (_ : ∀ c ∈ cs, 0 < c.cellsIn 0) (mB : Nat), ∃ ps,
        (fromComplexList cs mB >>= net.forward 𝕜) = .ok ps ∧
        (fromComplexList cs mB >>= sparse.forward 𝕜 SparseLevel.forward) = .ok ps := by
  refine ⟨net.asSparse, AgnosticNet.asSparse_fits hn, rfl, ?_⟩
  intro cs hne hr h0 mB
  refine ⟨_, AgnosticNet.forward_all hn hne hr h0 mB, ?_⟩
  rw [SparseNet.forward_all (realises_sparse false) (AgnosticNet.asSparse_fits hn) hne hr h0 mB]
  simp only [AgnosticNet.asSparse_predict]

/-! ### On graphs -/

/-- **C92** The baselines on clique complexes: the predictions for a batch of graphs, from the edge lists, are those of
the formulas on the cliques. -/
theorem C92_clique_predictions (g : Gudhi) (hg : g.Ok) (agg : List R → R)
    (hagg : ∀ l l' : List R, l.Perm l' → agg l = agg l') (k : Nat) (down : Bool) (net : AgnosticNet R) (hn : net.Fits)
    (dummy : DummyNet R) (hl : 1 ≤ dummy.layers) (hro : dummy.readout = "sum" ∨ dummy.readout = "mean")
    (Gs : List (FGraph R L)) (hne : Gs ≠ []) (hG : ∀ G ∈ Gs, G.Ok) (mB : Nat) (hdim : min 2 mB ≤ dummy.maxDim) :
    ∃ cs, mapE (FGraph.lift g agg k down) Gs = .ok cs ∧
      (fromComplexList cs mB >>= net.forward 𝕜) = .ok (Gs.map fun G =>
        net.predictOn 𝕜 ((cliqueSets G.edges G.size k).upTo mB) (cliqueFeatures agg G.x)) ∧
      (fromComplexList cs mB >>= dummy.forward 𝕜) = .ok (Gs.map fun G =>
        dummy.predictOn 𝕜 down ((cliqueSets G.edges G.size k).upTo mB) (cliqueFeatures agg G.x)) := by
  obtain ⟨cs, h1, h2⟩ := mapE_forall₂ (f := FGraph.lift g agg k down) (P := fun G comp => comp.Ready ∧
      0 < comp.cellsIn 0 ∧ ∃ cells, Shows (comp.view.upTo mB) down cells (cliqueFeatures agg G.x) ∧
        setsOf cells = (cliqueSets G.edges G.size k).upTo mB) (l := Gs) (fun G h => by
    have ok := hG G h
    obtain ⟨comp, e, rest⟩ := clique_shows hg hagg ok.edges ok.pos ok.rows k ok.labels down mB
    exact ⟨comp, e, rest⟩)
  have hall : ∀ c ∈ cs, c.Ready ∧ 0 < c.cellsIn 0 := by
    intro c hc
    obtain ⟨G, -, h⟩ := forall₂_source h2 hc
    exact ⟨h.1, h.2.1⟩
  have hne' : cs ≠ [] := by
    rintro rfl
    cases h2
    exact hne rfl
  refine ⟨cs, h1, ?_, ?_⟩
  · rw [AgnosticNet.forward_all hn hne' (fun c hc => (hall c hc).1) (fun c hc => (hall c hc).2), ok_inj]
    refine map_of_forall₂ h2 fun G c => ?_
    rintro ⟨-, -, cells, hv, hset⟩
    rw [AgnosticNet.predict_eq hv, hset]
  · rw [DummyNet.forward_all hl hro hne' (fun c hc => (hall c hc).1) (fun c hc => (hall c hc).2) mB
      (fun c _ => by omega), ok_inj]
    refine map_of_forall₂ h2 fun G c => ?_
    rintro ⟨-, -, cells, hv, hset⟩
    rw [CINNet.predict_eq hv, hset, DummyNet.asCIN_predictOn hl]

section
variable [DecidableEq R]

/-- **C92** The baselines on ring complexes: likewise, on the vertices, edges and rings. -/
theorem C92_ring_predictions (g : Gudhi) (hg : g.Ok) (lib : RingLib) (hlib : lib.Ok) (agg : List R → R)
    (hagg : ∀ l l' : List R, l.Perm l' → agg l = agg l') (maxK : Nat) (down : Bool)
    (net : AgnosticNet R) (hn : net.Fits)
    (dummy : DummyNet R) (hl : 1 ≤ dummy.layers) (hro : dummy.readout = "sum" ∨ dummy.readout = "mean")
    (Gs : List (RGraph R L)) (hne : Gs ≠ []) (hG : ∀ G ∈ Gs, G.Ok) (mB : Nat) (hdim : min 2 mB ≤ dummy.maxDim) :
    ∃ cs, mapE (RGraph.lift g lib agg maxK down true true) Gs = .ok cs ∧
      (fromComplexList cs mB >>= net.forward 𝕜) = .ok (Gs.map fun G =>
        net.predictOn 𝕜 ((ringSets G.edges G.size maxK).upTo mB) (G.features agg)) ∧
      (fromComplexList cs mB >>= dummy.forward 𝕜) = .ok (Gs.map fun G =>
        dummy.predictOn 𝕜 down ((ringSets G.edges G.size maxK).upTo mB) (G.features agg)) := by
  obtain ⟨cs, h1, h2⟩ := mapE_forall₂ (f := RGraph.lift g lib agg maxK down true true)
      (P := fun G comp => RingFacts comp true true ∧
        ∃ cells, Shows (comp.view.upTo mB) down cells (G.features agg) ∧
          setsOf cells = (ringSets G.edges G.size maxK).upTo mB) (l := Gs) (fun G h => by
    obtain ⟨comp, e, f, cells, a, b, -⟩ := ring_shows (agg := agg) (maxK := maxK) (down := down)
      (initEdges := true) (initRings := true) hg hlib hagg (hG G h) mB
    exact ⟨comp, e, f, cells, b rfl rfl, a⟩)
  have hall : ∀ c ∈ cs, RingFacts c true true := by
    intro c hc
    obtain ⟨G, -, h⟩ := forall₂_source h2 hc
    exact h.1
  have hne' : cs ≠ [] := by
    rintro rfl
    cases h2
    exact hne rfl
  refine ⟨cs, h1, ?_, ?_⟩
  · rw [AgnosticNet.forward_all hn hne' (fun c hc => (hall c hc).ready) (fun c hc => (hall c hc).cells 0 (Nat.zero_le _)),
      ok_inj]
    refine map_of_forall₂ h2 fun G c => ?_
    rintro ⟨-, cells, hv, hset⟩
    rw [AgnosticNet.predict_eq hv, hset]
  · rw [DummyNet.forward_all hl hro hne' (fun c hc => (hall c hc).ready)
      (fun c hc => (hall c hc).cells 0 (Nat.zero_le _)) mB (fun c _ => by omega), ok_inj]
    refine map_of_forall₂ h2 fun G c => ?_
    rintro ⟨-, cells, hv, hset⟩
    rw [CINNet.predict_eq hv, hset, DummyNet.asCIN_predictOn hl]

end

/-! ### Numbers of cells -/

/-- One feature for all nodes. -/
theorem combineSet_const {agg : List R → R} {x : List R} {a : R} (hx : ∀ y ∈ x, y = a) {s : Finset Nat}
    (hs : ∀ v ∈ s, v < x.length) : combineSet agg x s = agg (List.replicate s.card a) := by
  unfold combineSet
  refine congrArg agg (List.eq_replicate_iff.mpr ⟨by simp, ?_⟩)
  intro r hr
  obtain ⟨v, hv, rfl⟩ := List.mem_map.mp hr
  have hlt := hs v ((Finset.mem_sort _).mp hv)
  rw [rowOf, List.getElem?_eq_getElem hlt]
  exact hx _ (List.getElem_mem _)

theorem sum_const_rows {x : List R} {a : R} (hx : ∀ y ∈ x, y = a) {s : Finset Nat} (hs : ∀ v ∈ s, v < x.length) :
    ∑ v ∈ s, rowOf x v = s.card • a := by
  rw [Finset.sum_congr rfl (g := fun _ => a), Finset.sum_const]
  intro v hv
  rw [rowOf, List.getElem?_eq_getElem (hs v hv)]
  exact hx _ (List.getElem_mem _)

/-- **C92** For graphs whose nodes all have one feature, `MessagePassingAgnostic` on clique complexes only sees how many
cliques of each dimension there are. -/
theorem C92_agnostic_counts_cliques (g : Gudhi) (hg : g.Ok) (agg : List R → R)
    (hagg : ∀ l l' : List R, l.Perm l' → agg l = agg l') (k : Nat) (down : Bool) (net : AgnosticNet R) (hn : net.Fits)
    (G H : FGraph R L) (hG : G.Ok) (hH : H.Ok) (mB : Nat) (x : R) (hx : ∀ y ∈ G.x ++ H.x, y = x)
    (hnum : ∀ d ≤ min net.maxDim (min (max k 1) mB), cliqueNumber G.edges G.size d = cliqueNumber H.edges H.size d) :
    ∃ c d p, G.lift g agg k down = .ok c ∧ H.lift g agg k down = .ok d ∧
      (fromComplexList [c] mB >>= net.forward 𝕜) = .ok [p] ∧ (fromComplexList [d] mB >>= net.forward 𝕜) = .ok [p] := by
  have one : ∀ G : FGraph R L, G.Ok → ∃ c, G.lift g agg k down = .ok c ∧
      (fromComplexList [c] mB >>= net.forward 𝕜) =
        .ok [net.predictOn 𝕜 ((cliqueSets G.edges G.size k).upTo mB) (cliqueFeatures agg G.x)] := by
    intro G hG
    obtain ⟨cs, e1, e2, -⟩ := C92_clique_predictions (𝕜 := 𝕜) g hg agg hagg k down net hn
      { layers := 1, maxDim := mB, lin := id } (Nat.le_refl _) (.inl rfl) [G] (by simp) (by simpa using hG) mB
      (by simp)
    rw [mapE_eq_ok_iff] at e1
    cases e1 with
    | cons h hrest =>
      cases hrest
      exact ⟨_, h, e2⟩
  obtain ⟨c, hc, pc⟩ := one G hG
  obtain ⟨d, hd, pd⟩ := one H hH
  refine ⟨c, d, _, hc, hd, pc, ?_⟩
  rw [pd, ok_inj]
  refine congrArg (fun p => [p]) ?_
  unfold AgnosticNet.predictOn
  refine congrArg net.lin2 (congrArg List.sum (List.map_congr_left fun d hd => ?_))
  have hd := List.mem_range.mp hd
  refine congrArg (fun r => net.act (net.lin1 r)) ?_
  have key : ∀ G : FGraph R L, G.Ok → (∀ y ∈ G.x, y = x) → ∀ s ∈ (cliqueSets G.edges G.size k).upTo mB d,
      s.card = d + 1 ∧ net.first d (cliqueFeatures agg G.x d s) =
        net.first d (if d = 0 then s.card • x else agg (List.replicate s.card x)) := by
    intro G hG hx s hs
    unfold Cells.upTo at hs
    split at hs
    · obtain ⟨-, h1, -⟩ := mem_cliques.mp hs
      have hin : ∀ v ∈ s, v < G.x.length := by
        intro v hv
        rw [hG.rows]
        exact Finset.mem_range.mp (h1.1 hv)
      refine ⟨h1.2, congrArg (net.first d) ?_⟩
      cases d with
      | zero => exact sum_const_rows hx hin
      | succ d =>
        rw [if_neg (by omega)]
        exact combineSet_const hx hin
    · simp at hs
  refine poolSet_transport _ ?_ (fun n => net.first d (if d = 0 then n • x else agg (List.replicate n x)))
    (fun s hs => (key H hH (fun y hy => hx y (List.mem_append_right _ hy)) s hs).2)
    (fun s hs => (key G hG (fun y hy => hx y (List.mem_append_left _ hy)) s hs).2)
  intro n
  by_cases hn : n = d + 1
  · subst hn
    rw [Finset.filter_true_of_mem fun s hs => (key H hH (fun y hy => hx y (List.mem_append_right _ hy)) s hs).1,
      Finset.filter_true_of_mem fun s hs => (key G hG (fun y hy => hx y (List.mem_append_left _ hy)) s hs).1]
    unfold Cells.upTo
    by_cases hm : d ≤ mB
    · rw [if_pos hm, if_pos hm]
      by_cases hk : d ≤ max k 1
      · rw [card_cliques _ _ hk, card_cliques _ _ hk, hnum d (by omega)]
      · simp [cliqueSets, hk]
    · rw [if_neg hm, if_neg hm]
  · rw [Finset.filter_false_of_mem, Finset.filter_false_of_mem]
    · intro s hs e
      exact hn (e.symm.trans (key G hG (fun y hy => hx y (List.mem_append_left _ hy)) s hs).1)
    · intro s hs e
      exact hn (e.symm.trans (key H hH (fun y hy => hx y (List.mem_append_right _ hy)) s hs).1)

section
variable [DecidableEq R]

/-- **C92** Likewise on ring complexes: for graphs whose nodes all have one feature, and without features of edges, it
only sees how many edges, and rings of each length, there are. -/
theorem C92_agnostic_counts_rings (g : Gudhi) (hg : g.Ok) (lib : RingLib) (hlib : lib.Ok) (agg : List R → R)
    (hagg : ∀ l l' : List R, l.Perm l' → agg l = agg l') (maxK : Nat) (down : Bool)
    (net : AgnosticNet R) (hn : net.Fits) (G H : RGraph R L) (hG : G.Ok ∧ G.attr = none) (hH : H.Ok ∧ H.attr = none)
    (mB : Nat) (x : R) (hx : ∀ y ∈ G.x ++ H.x, y = x)
    (hnum : ∀ d ≤ min net.maxDim mB, ∀ n, ((ringSets G.edges G.size maxK d).filter fun s => s.card = n).card =
      ((ringSets H.edges H.size maxK d).filter fun s => s.card = n).card) :
    ∃ c d p, G.lift g lib agg maxK down true true = .ok c ∧ H.lift g lib agg maxK down true true = .ok d ∧
      (fromComplexList [c] mB >>= net.forward 𝕜) = .ok [p] ∧ (fromComplexList [d] mB >>= net.forward 𝕜) = .ok [p] := by
  have one : ∀ G : RGraph R L, G.Ok → ∃ c, G.lift g lib agg maxK down true true = .ok c ∧
      (fromComplexList [c] mB >>= net.forward 𝕜) =
        .ok [net.predictOn 𝕜 ((ringSets G.edges G.size maxK).upTo mB) (G.features agg)] := by
    intro G hG
    obtain ⟨cs, e1, e2, -⟩ := C92_ring_predictions (𝕜 := 𝕜) g hg lib hlib agg hagg maxK down net hn
      { layers := 1, maxDim := mB, lin := id } (Nat.le_refl _) (.inl rfl) [G] (by simp) (by simpa using hG) mB
      (by simp)
    rw [mapE_eq_ok_iff] at e1
    cases e1 with
    | cons h hrest =>
      cases hrest
      exact ⟨_, h, e2⟩
  obtain ⟨c, hc, pc⟩ := one G hG.1
  obtain ⟨d, hd, pd⟩ := one H hH.1
  refine ⟨c, d, _, hc, hd, pc, ?_⟩
  rw [pd, ok_inj]
  refine congrArg (fun p => [p]) ?_
  unfold AgnosticNet.predictOn
  refine congrArg net.lin2 (congrArg List.sum (List.map_congr_left fun d hd => ?_))
  have hd := List.mem_range.mp hd
  refine congrArg (fun r => net.act (net.lin1 r)) ?_
  have key : ∀ G : RGraph R L, G.Ok ∧ G.attr = none → (∀ y ∈ G.x, y = x) →
      ∀ s ∈ (ringSets G.edges G.size maxK).upTo mB d, net.first d (G.features agg d s) =
        net.first d (if d = 0 then s.card • x else agg (List.replicate s.card x)) := by
    intro G hG hx s hs
    unfold Cells.upTo at hs
    split at hs
    · have hin : ∀ v ∈ s, v < G.x.length := by
        rw [hG.1.rows]
        match d, hs with
        | 0, hs =>
          obtain ⟨v, hv, rfl⟩ := Finset.mem_image.mp hs
          intro u hu
          rw [Finset.mem_singleton.mp hu]
          exact Finset.mem_range.mp hv
        | 1, hs =>
          simp only [ringSets, Finset.mem_filter] at hs
          exact fun v hv => Finset.mem_range.mp (Finset.mem_powerset.mp hs.1 hv)
        | 2, hs =>
          simp only [ringSets, Finset.mem_filter] at hs
          exact fun v hv => Finset.mem_range.mp (Finset.mem_powerset.mp hs.1 hv)
        | d + 3, hs => simp [ringSets] at hs
      refine congrArg (net.first d) ?_
      match d with
      | 0 => exact sum_const_rows hx hin
      | 1 =>
        rw [if_neg (by omega)]
        unfold RGraph.features
        rw [hG.2]
        exact combineSet_const hx hin
      | d + 2 =>
        rw [if_neg (by omega)]
        exact combineSet_const hx hin
    · simp at hs
  refine poolSet_transport _ ?_ (fun n => net.first d (if d = 0 then n • x else agg (List.replicate n x)))
    (key H hH fun y hy => hx y (List.mem_append_right _ hy)) (key G hG fun y hy => hx y (List.mem_append_left _ hy))
  intro n
  unfold Cells.upTo
  by_cases hm : d ≤ mB
  · rw [if_pos hm, if_pos hm, hnum d (by omega) n]
  · rw [if_neg hm, if_neg hm]

end

/-! ### `Dummy` -/

/-- **C92** `Dummy` asks for the dimensions up to 2, whatever its own: it refuses a batch with cells of a dimension up to
2 that it has no level for. -/
theorem C92_dummy_refuses (net : DummyNet R) (hl : 1 ≤ net.layers) (cs : List (Complex R L)) (hr : ∀ c ∈ cs, c.Ready)
    (mB : Nat) (hdim : ∃ c ∈ cs, net.maxDim < min 2 (min c.dimension mB)) :
    (fromComplexList cs mB >>= net.forward 𝕜) = .error .assertion := by
  obtain ⟨c, hc, -⟩ := id hdim
  exact DummyNet.forward_refuses hl (List.ne_nil_of_mem hc) hr mB hdim

/-! ### What the baseline cannot see -/

namespace Fixtures

/-- A path of four nodes and a star of four nodes: as many nodes and edges, no triangles. -/
def pathG : FGraph ℚ Nat := ⟨4, [1, 1, 1, 1], [(0, 1), (1, 0), (1, 2), (2, 1), (2, 3), (3, 2)], none⟩
def starG : FGraph ℚ Nat := ⟨4, [1, 1, 1, 1], [(0, 1), (1, 0), (0, 2), (2, 0), (0, 3), (3, 0)], none⟩

theorem pathG_ok : pathG.Ok := ⟨by decide, rfl, by unfold EdgesIn pathG; decide, by simp [pathG]⟩
theorem starG_ok : starG.Ok := ⟨by decide, rfl, by unfold EdgesIn starG; decide, by simp [starG]⟩

theorem path_star_cliques (d : Nat) :
    cliqueNumber pathG.edges pathG.size d = cliqueNumber starG.edges starG.size d := by
  match d with
  | 0 => decide +kernel
  | 1 => decide +kernel
  | 2 => decide +kernel
  | 3 => decide +kernel
  | d + 4 =>
    unfold cliqueNumber
    rw [Finset.powersetCard_eq_empty.mpr (by rw [Finset.card_range]; show 4 < _; omega),
      Finset.powersetCard_eq_empty.mpr (by rw [Finset.card_range]; show 4 < _; omega)]
    rfl

/-- One layer that squares the number of neighbours of a node. -/
def degreesNet : SparseNet ℚ (SparseLevel ℚ ℚ) where
  convs := [[⟨.plain fun _ => 1, id, fun r => r * r, id, fun u _ => u, -1, 0⟩]]
  maxDim := 0
  readoutDims := none
  act := id
  lin1s := [id]
  lin2 := id

theorem degreesNet_fits : degreesNet.Fits :=
  ⟨by simp [degreesNet], by simp [degreesNet], rfl, .inl rfl, .inl rfl, by decide⟩

end Fixtures

/-- The step of a vertex depends on vertices and edges only. -/
theorem step_zero_congr {K K' : Cells} (h0 : K 0 = K' 0) (h1 : K 1 = K' 1) (r : Rule R) (down : Bool)
    (h : Nat → Finset Nat → R) (s : Finset Nat) : K.step r down h 0 s = K'.step r down h 0 s := by
  unfold Cells.step
  simp only [Cells.cofacesOf, Cells.facesOf, h0, h1, Nat.zero_add]

open Fixtures in
theorem degreesNet_predictOn {edges : List (Nat × Nat)} {size : Nat} (he : EdgesIn edges size) (k mB : Nat) (hm : 1 ≤ mB)
    (down : Bool) (h : Nat → Finset Nat → ℚ) :
    degreesNet.predictOn ℚ SparseLevel.rule down ((cliqueSets edges size k).upTo mB) h =
      ∑ v ∈ Finset.range size, (((Finset.range size).filter (Joined edges v)).card : ℚ) ^ 2 := by
  have e3 := ringSets_three he
  have e0 : (cliqueSets edges size k).upTo mB 0 = ringSets edges size 3 0 := by
    rw [e3]; simp [Cells.upTo, cliqueSets]
  have e1 : (cliqueSets edges size k).upTo mB 1 = ringSets edges size 3 1 := by
    rw [e3]; simp [Cells.upTo, cliqueSets, hm]
  unfold SparseNet.predictOn
  have hd : degreesNet.dims = [0] := rfl
  rw [hd]
  simp only [List.map_cons, List.map_nil]
  have hj : ∀ v, jumpOf degreesNet.jump (((cliqueSets edges size k).upTo mB).run down degreesNet.maxDim h
      (degreesNet.convs.map (rulesOf SparseLevel.rule))) 0 {v} =
      (((Finset.range size).filter (Joined edges v)).card : ℚ) ^ 2 := by
    intro v
    simp only [degreesNet, List.map_cons, List.map_nil, Cells.run, jumpOf, List.getLast?_singleton, Option.map_some,
      Option.getD_some, Nat.le_refl, if_true]
    rw [step_zero_congr e0 e1, C85_a_vertex_hears_its_neighbours edges size 3 he]
    simp [rulesOf, SparseLevel.rule, Msg.value, pow_two]
  show id (poolOf ℚ "sum" [id (id (poolSet ℚ "sum" ((cliqueSets edges size k).upTo mB 0) _))]) = _
  rw [e0]
  simp only [id, poolOf, poolSet, show ¬ ("sum" = "mean") by decide, if_false, List.sum_cons, List.sum_nil, add_zero]
  show ∑ s ∈ (Finset.range size).image (fun v => ({v} : Finset Nat)), _ = _
  rw [Finset.sum_image (fun a _ b _ h => Finset.singleton_injective h)]
  exact Finset.sum_congr rfl fun v _ => hj v

open Fixtures in
/-- **C92** The baseline sees strictly less: a path and a star of four nodes are alike for every `MessagePassingAgnostic`
on their clique complexes, and some SparseCIN of one layer tells them apart. -/
theorem C92_agnostic_sees_less : ∃ G H : FGraph ℚ Nat, G.Ok ∧ H.Ok ∧
    (∀ (g : Gudhi) (_ : g.Ok) (agg : List ℚ → ℚ) (_ : ∀ l l' : List ℚ, l.Perm l' → agg l = agg l') (k : Nat)
      (down : Bool) (net : AgnosticNet ℚ) (_ : net.Fits) (mB : Nat),
      ∃ c d p, G.lift g agg k down = .ok c ∧ H.lift g agg k down = .ok d ∧
        (fromComplexList [c] mB >>= net.forward ℚ) = .ok [p] ∧ (fromComplexList [d] mB >>= net.forward ℚ) = .ok [p]) ∧
    ∃ sparse : SparseNet ℚ (SparseLevel ℚ ℚ), sparse.Fits ∧ sparse.convs.length = 1 ∧
      ∀ (g : Gudhi) (_ : g.Ok) (agg : List ℚ → ℚ) (_ : ∀ l l' : List ℚ, l.Perm l' → agg l = agg l') (k : Nat)
        (down : Bool) (mB : Nat) (_ : 1 ≤ mB), ∃ c d,
          G.lift g agg k down = .ok c ∧ H.lift g agg k down = .ok d ∧
          (fromComplexList [c] mB >>= sparse.forward ℚ SparseLevel.forward) = .ok [10] ∧
          (fromComplexList [d] mB >>= sparse.forward ℚ SparseLevel.forward) = .ok [12] := by
  refine ⟨pathG, starG, pathG_ok, starG_ok, ?_, degreesNet, degreesNet_fits, rfl, ?_⟩
  · intro g hg agg hagg k down net hn mB
    exact C92_agnostic_counts_cliques g hg agg hagg k down net hn pathG starG pathG_ok starG_ok mB 1
      (fun y hy => List.eq_of_mem_replicate (n := 8) hy) fun d _ => path_star_cliques d
  · intro g hg agg hagg k down mB hm
    have one : ∀ G : FGraph ℚ Nat, G.Ok → ∃ c, FGraph.lift g agg k down G = .ok c ∧
        (fromComplexList [c] mB >>= degreesNet.forward ℚ SparseLevel.forward) = .ok
          [∑ v ∈ Finset.range G.size, (((Finset.range G.size).filter (Joined G.edges v)).card : ℚ) ^ 2] := by
      intro G hG
      obtain ⟨cs, e1, e2, -⟩ := C85_clique_predictions g hg agg hagg k down degreesNet degreesNet_fits ppNetQ ppNetQ_fits
        cinNetQ cinNetQ_fits [G] (by simp) (by simpa using hG) mB
      rw [List.map_cons, List.map_nil, degreesNet_predictOn hG.edges k mB hm] at e2
      rw [mapE_eq_ok_iff] at e1
      cases e1 with
      | cons h hrest =>
        cases hrest
        exact ⟨_, h, e2⟩
    obtain ⟨c, a1, a2⟩ := one pathG pathG_ok
    obtain ⟨d, b1, b2⟩ := one starG starG_ok
    refine ⟨c, d, a1, b1, ?_, ?_⟩
    · rw [a2]; decide +kernel
    · rw [b2]; decide +kernel

/-! ### Examples -/

section Examples
open Fixtures

/-- A baseline of dimension 2 on rationals. -/
def Fixtures.agnosticQ : AgnosticNet ℚ where
  act := fun r => r * r
  lin0s := [fun r => r + 1, fun r => 2 * r, fun r => r - 1]
  lin1 := fun r => 3 * r + 1
  lin2 := fun r => r - 1

theorem Fixtures.agnosticQ_fits : agnosticQ.Fits := ⟨rfl, .inl rfl⟩

/-- `Dummy` as it is built by default. -/
def Fixtures.dummyQ : DummyNet ℚ where
  layers := 2
  lin := fun r => 2 * r + 1

/-- A batch of three complexes, of dimensions 1, 0 and 2. -/
example := C92_agnostic_predictions (𝕜 := ℚ) agnosticQ agnosticQ_fits [segQ, dotsQ, houseQ] (by simp)
  (by simpa using ⟨segQ_ready, dotsQ_ready, houseQ_ready⟩) (by decide) 2

example : agnosticQ.predict ℚ segQ.view.X = 7837097 := by decide +kernel

/-- The house with the features of its cells in the opposite order. -/
def Fixtures.houseR : Complex ℚ Nat :=
  { houseQ with cochains := houseQ.cochains.map fun c => { c with x := c.x.map List.reverse } }

theorem Fixtures.houseR_ready : houseR.Ready := ⟨validB_sound (by decide), by unfold Complex.Featured; decide, rfl⟩

example := C92_agnostic_ignores_incidences (𝕜 := ℚ) agnosticQ agnosticQ_fits [houseQ, dotsQ] [houseR, dotsQ] (by simp)
  (by simpa using ⟨houseQ_ready, dotsQ_ready, houseR_ready, dotsQ_ready⟩) (by decide) 2
  (.cons (by decide) (.cons (fun _ _ => .refl _) .nil))

example : houseQ.view.X 0 ≠ houseR.view.X 0 := by decide

/-- A `Dummy` of dimension 1 refuses the house, whose roof has dimension 2, and takes it in a batch of dimension 1. -/
example : houseQ.dimension = 2 ∧
    (fromComplexList [segQ, houseQ] 2 >>= ({ dummyQ with maxDim := 1 } : DummyNet ℚ).forward ℚ) = .error .assertion :=
  ⟨rfl, C92_dummy_refuses _ (by decide) [segQ, houseQ] (by simpa using ⟨segQ_ready, houseQ_ready⟩) 2 ⟨houseQ, by simp, by decide⟩⟩

example : ((fromComplexList [segQ, houseQ] 1 >>= ({ dummyQ with maxDim := 1 } : DummyNet ℚ).forward ℚ)).isOk = true := by
  decide +kernel

example := C92_sparse_can_be_agnostic (𝕜 := ℚ) (L := Nat) agnosticQ agnosticQ_fits

example := C92_clique_predictions (𝕜 := ℚ) (L := Nat) plainGudhi plainGudhi_ok List.sum (fun _ _ h => h.sum_eq) 2 true
  agnosticQ agnosticQ_fits dummyQ (by decide) (.inl rfl) [kiteG, kiteH] (by simp) (by simpa using ⟨kiteG_ok, kiteH_ok⟩) 2
  (by decide)

example := C92_ring_predictions (𝕜 := ℚ) plainGudhi plainGudhi_ok plainRings plainRings_ok List.sum
  (fun _ _ h => h.sum_eq) 4 true agnosticQ agnosticQ_fits dummyQ (by decide) (.inl rfl) [shedG, shedH] (by simp)
  (by simpa using ⟨shedG_ok, shedH_ok⟩) 2 (by decide)

/-- The strongly regular graphs with sixteen nodes of degree six. -/
example :=
  have h : ∀ d ≤ 2, cliqueNumber rookG.edges 16 d = cliqueNumber shrikG.edges 16 d := by decide +kernel
  C92_agnostic_counts_cliques (𝕜 := ℚ) plainGudhi plainGudhi_ok List.sum (fun _ _ h => h.sum_eq) 2 true agnosticQ
    agnosticQ_fits rookG.bare shrikG.bare (bare_usual rookG_ok).1 (bare_usual shrikG_ok).1 2 1
    (fun _ hy => List.eq_of_mem_replicate (n := 32) hy) h

/-- The same with rings of three nodes. -/
example :=
  have h : ∀ d ≤ 2, cliqueNumber rookG.edges 16 d = cliqueNumber shrikG.edges 16 d := by decide +kernel
  C92_agnostic_counts_rings (𝕜 := ℚ) plainGudhi plainGudhi_ok plainRings plainRings_ok List.sum (fun _ _ h => h.sum_eq) 3
    true agnosticQ agnosticQ_fits rookG shrikG ⟨rookG_ok.1, rfl⟩ ⟨shrikG_ok.1, rfl⟩ 2 1
    (fun _ hy => List.eq_of_mem_replicate (n := 32) hy) (by
      intro d hd n
      have hd : d ≤ 2 := hd
      rw [ringSets_three rookG_ok.1.edges, ringSets_three shrikG_ok.1.edges]
      by_cases hn : n = d + 1
      · subst hn
        rw [Finset.filter_true_of_mem fun s hs => (mem_cliques.mp hs).2.1.2,
          Finset.filter_true_of_mem fun s hs => (mem_cliques.mp hs).2.1.2, card_cliques _ _ (by omega),
          card_cliques _ _ (by omega)]
        exact h d hd
      · rw [Finset.filter_false_of_mem fun s hs e => hn (e.symm.trans (mem_cliques.mp hs).2.1.2),
          Finset.filter_false_of_mem fun s hs e => hn (e.symm.trans (mem_cliques.mp hs).2.1.2)])

end Examples

end Verif
