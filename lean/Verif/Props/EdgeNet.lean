import Verif.Lemmas.EdgeNet
import Verif.Props.Baselines

/-!
# C93: `EdgeCIN0`
-/

namespace Verif

variable {𝕜 R L : Type} [Field 𝕜] [AddCommMonoid R] [Module 𝕜 R]

/-- **C93** `EdgeCIN0` gives one prediction per complex of the batch, that of the specification for the complex alone,
cut off at the dimension of the batch. -/
theorem C93_edge_predictions (net : EdgeNet R (CINLevel 𝕜 R)) (hn : net.Fits) (cs : List (Complex R L)) (hne : cs ≠ [])
    (hr : ∀ c ∈ cs, c.Ready) (h0 : ∀ c ∈ cs, 0 < c.cellsIn 0) (mB : Nat) :
    (fromComplexList cs mB >>= net.forward 𝕜 CINLevel.forward) = .ok (cs.map fun c => net.predict (c.view.upTo mB)) :=
  EdgeNet.forward_all hn hne hr h0 mB

/-- **C93** Its predictions do not change when the cells are renumbered and the columns reordered. -/
theorem C93_edge_numbering (net : EdgeNet R (CINLevel 𝕜 R)) (hn : net.Fits) (cs cs' : List (Complex R L)) (hne : cs ≠ [])
    (h : RenumberedBatch cs cs') (hr : ∀ c ∈ cs, c.Ready) (hr' : ∀ c ∈ cs', c.Ready) (h0 : ∀ c ∈ cs, 0 < c.cellsIn 0)
    (mB : Nat) :
    ∃ preds, (fromComplexList cs mB >>= net.forward 𝕜 CINLevel.forward) = .ok preds ∧
      (fromComplexList cs' mB >>= net.forward 𝕜 CINLevel.forward) = .ok preds := by
  refine ⟨_, EdgeNet.forward_all hn hne hr h0 mB, ?_⟩
  rw [EdgeNet.forward_all hn (ne_of_renumbered h hne) hr' (cells_of_renumbered h hr hr' h0) mB,
    map_eq_of_renumbered h hr (fun v w φ hφ hv => net.predict_relabel hφ hv)]

/-- **C93** What does not matter to `EdgeCIN0`: complexes with the same features of vertices and edges and the same upper
and lower adjacencies of these get the same prediction. The features of the 2-cells matter only if they are included;
the adjacencies of the 2-cells, the boundaries, and all cells above dimension 2 never do. -/
theorem C93_edge_blind_spots (net : EdgeNet R (CINLevel 𝕜 R)) (hn : net.Fits) (cs ds : List (Complex R L)) (hne : cs ≠ [])
    (hr : ∀ c ∈ cs ++ ds, c.Ready) (h0 : ∀ c ∈ cs ++ ds, 0 < c.cellsIn 0) (mB : Nat)
    (hsame : List.Forall₂ (fun c d => EdgeAlike net.includeTop c.view d.view) cs ds) :
    ∃ ps, (fromComplexList cs mB >>= net.forward 𝕜 CINLevel.forward) = .ok ps ∧
      (fromComplexList ds mB >>= net.forward 𝕜 CINLevel.forward) = .ok ps := by
  have hne' : ds ≠ [] := by
    rintro rfl
    cases hsame
    exact hne rfl
  refine ⟨_, EdgeNet.forward_all hn hne (fun c hc => hr c (List.mem_append_left _ hc))
    (fun c hc => h0 c (List.mem_append_left _ hc)) mB, ?_⟩
  rw [EdgeNet.forward_all hn hne' (fun c hc => hr c (List.mem_append_right _ hc))
    (fun c hc => h0 c (List.mem_append_right _ hc)) mB, ok_inj]
  refine map_of_forall₂ hsame fun c d h => (EdgeAlike.predict ⟨?_, ?_, ?_, ?_⟩).symm
  · intro i hi
    simp only [View.upTo, h.X i hi]
  · intro ht
    simp only [View.upTo, h.rows ht]
  · intro i hi
    simp only [View.upTo, h.up i hi]
  · intro i hi
    simp only [View.upTo, h.down i hi]

/-! ### On graphs -/

/-- **C93** `EdgeCIN0` on clique complexes: the predictions for a batch of graphs, from the edge lists, are those of the
formula on the cliques. -/
theorem C93_clique_predictions (g : Gudhi) (hg : g.Ok) (agg : List R → R)
    (hagg : ∀ l l' : List R, l.Perm l' → agg l = agg l') (k : Nat) (down : Bool) (net : EdgeNet R (CINLevel 𝕜 R))
    (hn : net.Fits) (Gs : List (FGraph R L)) (hne : Gs ≠ []) (hG : ∀ G ∈ Gs, G.Ok) (mB : Nat) :
    ∃ cs, mapE (FGraph.lift g agg k down) Gs = .ok cs ∧
      (fromComplexList cs mB >>= net.forward 𝕜 CINLevel.forward) = .ok (Gs.map fun G =>
        net.predictOn down ((cliqueSets G.edges G.size k).upTo mB) (cliqueFeatures agg G.x)) := by
  obtain ⟨cs, h1, h2⟩ := mapE_forall₂ (f := FGraph.lift g agg k down) (P := fun G comp => comp.Ready ∧
      0 < comp.cellsIn 0 ∧ ∃ cells, Shows (comp.view.upTo mB) down cells (cliqueFeatures agg G.x) ∧
        setsOf cells = (cliqueSets G.edges G.size k).upTo mB) (l := Gs) (fun G h => by
    have ok := hG G h
    obtain ⟨comp, e, rest⟩ := clique_shows hg hagg ok.edges ok.pos ok.rows k ok.labels down mB
    exact ⟨comp, e, rest⟩)
  have hall : ∀ c ∈ cs, c.Ready ∧ 0 < c.cellsIn 0 := by
    intro c hc
    obtain ⟨G, -, h⟩ := forall₂_source h2 hc
    exact ⟨h.1, h.2.1⟩
  have hne' : cs ≠ [] := by
    rintro rfl
    cases h2
    exact hne rfl
  refine ⟨cs, h1, ?_⟩
  rw [EdgeNet.forward_all hn hne' (fun c hc => (hall c hc).1) (fun c hc => (hall c hc).2), ok_inj]
  refine map_of_forall₂ h2 fun G c => ?_
  rintro ⟨-, -, cells, hv, hset⟩
  rw [EdgeNet.predict_eq hv, hset]

section
variable [DecidableEq R]

/-- **C93** `EdgeCIN0` on ring complexes: likewise, on the vertices, edges and rings. -/
theorem C93_ring_predictions (g : Gudhi) (hg : g.Ok) (lib : RingLib) (hlib : lib.Ok) (agg : List R → R)
    (hagg : ∀ l l' : List R, l.Perm l' → agg l = agg l') (maxK : Nat) (down : Bool) (net : EdgeNet R (CINLevel 𝕜 R))
    (hn : net.Fits) (Gs : List (RGraph R L)) (hne : Gs ≠ []) (hG : ∀ G ∈ Gs, G.Ok) (mB : Nat) :
    ∃ cs, mapE (RGraph.lift g lib agg maxK down true true) Gs = .ok cs ∧
      (fromComplexList cs mB >>= net.forward 𝕜 CINLevel.forward) = .ok (Gs.map fun G =>
        net.predictOn down ((ringSets G.edges G.size maxK).upTo mB) (G.features agg)) := by
  obtain ⟨cs, h1, h2⟩ := mapE_forall₂ (f := RGraph.lift g lib agg maxK down true true)
      (P := fun G comp => RingFacts comp true true ∧
        ∃ cells, Shows (comp.view.upTo mB) down cells (G.features agg) ∧
          setsOf cells = (ringSets G.edges G.size maxK).upTo mB) (l := Gs) (fun G h => by
    obtain ⟨comp, e, f, cells, a, b, -⟩ := ring_shows (agg := agg) (maxK := maxK) (down := down)
      (initEdges := true) (initRings := true) hg hlib hagg (hG G h) mB
    exact ⟨comp, e, f, cells, b rfl rfl, a⟩)
  have hall : ∀ c ∈ cs, RingFacts c true true := by
    intro c hc
    obtain ⟨G, -, h⟩ := forall₂_source h2 hc
    exact h.1
  have hne' : cs ≠ [] := by
    rintro rfl
    cases h2
    exact hne rfl
  refine ⟨cs, h1, ?_⟩
  rw [EdgeNet.forward_all hn hne' (fun c hc => (hall c hc).ready) (fun c hc => (hall c hc).cells 0 (Nat.zero_le _)),
    ok_inj]
  refine map_of_forall₂ h2 fun G c => ?_
  rintro ⟨-, cells, hv, hset⟩
  rw [EdgeNet.predict_eq hv, hset]

end

/-! ### The rings still count -/

namespace Fixtures

/-- One layer, without the features of the 2-cells: an edge counts the other edges of its rings. -/
def edgeCountQ : EdgeNet ℚ (CINLevel ℚ ℚ) where
  convs := [[⟨id, fun x _ => x, fun x _ => x, fun _ => 0, 0⟩, ⟨fun _ => 1, fun _ _ => 0, fun _ _ => 0, id, -1⟩]]
  includeTop := false
  updateTop := false
  act := id
  lin1 := id
  lin2 := id

theorem edgeCountQ_fits : edgeCountQ.Fits := ⟨by simp [edgeCountQ], by simp [edgeCountQ], by simp [edgeCountQ], .inl rfl⟩

/-- The rings, computed. -/
theorem ringSets_plain {edges : List (Nat × Nat)} {size : Nat} (he : EdgesIn edges size) (h0 : 0 < size) (maxK d : Nat)
    (hd : d < ringDims (plainGudhi.inserted (insertions edges size)) (getRings plainRings edges maxK)) :
    ringSets edges size maxK d = ((ringCells (plainGudhi.inserted (insertions edges size)) size
      (getRings plainRings edges maxK) d).map List.toFinset).toFinset := by
  ext s
  rw [mem_ringSets (g := plainGudhi) (lib := plainRings) plainGudhi_ok plainRings_ok he h0, List.mem_toFinset,
    List.mem_map]
  exact ⟨fun ⟨_, c, hc, e⟩ => ⟨c, hc, e.symm⟩, fun ⟨c, hc, e⟩ => ⟨hd, c, hc, e.symm⟩⟩

theorem hexG_rings : ringSets hexG.edges 6 3 2 = ∅ := by
  have he : EdgesIn hexG.edges 6 := hexG_ok.1.edges
  rw [ringSets_three he, ← Finset.card_eq_zero, card_cliques _ _ (by omega)]
  decide +kernel

theorem triG_rings : ringSets triG.edges 6 3 1 = {{0, 1}, {1, 2}, {0, 2}, {3, 4}, {4, 5}, {3, 5}} ∧
    ringSets triG.edges 6 3 2 = {{0, 1, 2}, {3, 4, 5}} := by
  have he : EdgesIn triG.edges 6 := triG_ok.1.edges
  have hd : 2 < ringDims (plainGudhi.inserted (insertions triG.edges 6)) (getRings plainRings triG.edges 3) := by
    decide +kernel
  refine ⟨(ringSets_plain he (Nat.succ_pos _) 3 1 (Nat.lt_trans (Nat.lt_succ_self 1) hd)).trans ?_,
    (ringSets_plain he (Nat.succ_pos _) 3 2 hd).trans ?_⟩
  · decide +kernel
  · decide +kernel

end Fixtures

open Fixtures in
theorem edgeCountQ_predictOn (K : Cells) (down : Bool) (h : Nat → Finset Nat → ℚ) :
    edgeCountQ.predictOn down K h = ∑ s ∈ K 1, ∑ t ∈ (K 2).filter (s ⊆ ·), (((K 1).filter fun u => u ⊆ t ∧ u ≠ s).card : ℚ) := by
  simp [EdgeNet.predictOn, edgeCountQ, EdgeNet.allRules, EdgeNet.rules, Cells.run, jumpOf, Cells.step, rulesOf, CINLevel.rule,
    poolSet, Cells.cofacesOf, List.range_succ]

open Fixtures in
/-- **C93** Without the features of the 2-cells, and pooling vertices and edges only, `EdgeCIN0` still sees the rings,
through the edges around them: one layer tells the hexagon and two triangles apart on their ring complexes, whatever the
features. Colour refinement cannot (`hexG_alike`). -/
theorem C93_edge_sees_rings : ∃ net : EdgeNet ℚ (CINLevel ℚ ℚ), net.Fits ∧ net.includeTop = false ∧
    net.convs.length = 1 ∧
    ∀ (g : Gudhi) (_ : g.Ok) (lib : RingLib) (_ : lib.Ok) (agg : List ℚ → ℚ)
      (_ : ∀ l l' : List ℚ, l.Perm l' → agg l = agg l') (down : Bool) (mB : Nat) (_ : 2 ≤ mB),
      ∃ c d, RGraph.lift g lib agg 3 down true true hexG = .ok c ∧
        RGraph.lift g lib agg 3 down true true triG = .ok d ∧
        (fromComplexList [c, d] mB >>= net.forward ℚ CINLevel.forward) = .ok [0, 12] := by
  refine ⟨edgeCountQ, edgeCountQ_fits, rfl, rfl, ?_⟩
  intro g hg lib hlib agg hagg down mB hm
  obtain ⟨cs, e1, e2⟩ := C93_ring_predictions g hg lib hlib agg hagg 3 down edgeCountQ edgeCountQ_fits [hexG, triG]
    (by simp) (by simpa using ⟨hexG_ok.1, triG_ok.1⟩) mB
  rw [mapE_eq_ok_iff] at e1
  cases e1 with
  | cons h hrest =>
    cases hrest with
    | cons h' hrest =>
      cases hrest
      refine ⟨_, _, h, h', e2.trans ?_⟩
      rw [List.map_cons, List.map_cons, List.map_nil, edgeCountQ_predictOn, edgeCountQ_predictOn]
      have up : ∀ (K : Cells) (d : Nat), d ≤ 2 → K.upTo mB d = K d := fun K d hd => if_pos (by omega)
      rw [up _ 1 (by omega), up _ 2 (by omega), up _ 1 (by omega), up _ 2 (by omega)]
      show Except.ok [_, _] = _
      rw [show hexG.size = 6 from rfl, show triG.size = 6 from rfl, hexG_rings, triG_rings.1, triG_rings.2]
      simp only [Finset.filter_empty, Finset.sum_empty, Finset.sum_const_zero]
      decide +kernel

/-! ### Examples -/

section Examples
open Fixtures

/-- A network of three layers that updates the features of the 2-cells. -/
def Fixtures.edgeQ : EdgeNet ℚ (CINLevel ℚ ℚ) where
  convs := [[cinQ, cinQ], [cinQ, ⟨fun x => x + 1, fun x a => x + a, fun x a => x * a, fun x => x - 1, 0⟩], [cinQ, cinQ]]
  topNNs := [fun r => r + 1, fun r => 2 * r]
  readout := "mean"
  act := fun r => r * r
  lin1 := fun r => r - 1
  lin2 := fun r => 2 * r

theorem Fixtures.edgeQ_fits : edgeQ.Fits := ⟨by simp [edgeQ], by simp [edgeQ], fun _ _ => rfl, .inr rfl⟩

/-- The same without the features of the 2-cells. -/
def Fixtures.edgeBareQ : EdgeNet ℚ (CINLevel ℚ ℚ) := { edgeQ with includeTop := false }

theorem Fixtures.edgeBareQ_fits : edgeBareQ.Fits :=
  ⟨by simp [edgeBareQ, edgeQ], by simp [edgeBareQ, edgeQ], fun h => by simp [edgeBareQ] at h, .inr rfl⟩

/-- A batch of three complexes, of dimensions 1, 0 and 2. -/
example := C93_edge_predictions edgeQ edgeQ_fits [segQ, dotsQ, houseQ] (by simp)
  (by simpa using ⟨segQ_ready, dotsQ_ready, houseQ_ready⟩) (by decide) 2

/-- The segment with its first two vertices swapped. -/
example : (fromComplexList [segQ, houseQ] 2 >>= edgeQ.forward ℚ CINLevel.forward) =
    (fromComplexList [segQ.relabel (swap01 segQ), houseQ] 2 >>= edgeQ.forward ℚ CINLevel.forward) ∧
    segQ.relabel (swap01 segQ) ≠ segQ := by
  refine ⟨by decide +kernel, fun h => ?_⟩
  have := congrArg (fun c => c.view.X 0) h
  revert this
  decide

/-- The house with another feature of its roof: invisible without the features of the 2-cells, visible with them. -/
def Fixtures.houseTopQ : Complex ℚ Nat :=
  { houseQ with cochains := houseQ.cochains.mapIdx fun i c => if i = 2 then { c with x := c.x.map (List.map (· + 1)) } else c }

theorem Fixtures.houseTopQ_ready : houseTopQ.Ready := ⟨validB_sound (by decide), by unfold Complex.Featured; decide, rfl⟩

example := C93_edge_blind_spots edgeBareQ edgeBareQ_fits [houseQ, segQ] [houseTopQ, segQ] (by simp)
  (by simpa using ⟨houseQ_ready, segQ_ready, houseTopQ_ready, segQ_ready⟩) (by decide) 2
  (.cons ⟨by decide, by decide, by decide, by decide⟩ (.cons ⟨fun _ _ => rfl, fun _ => rfl, fun _ _ => rfl, fun _ _ => rfl⟩ .nil))

example : (fromComplexList [houseQ] 2 >>= edgeQ.forward ℚ CINLevel.forward) ≠
    (fromComplexList [houseTopQ] 2 >>= edgeQ.forward ℚ CINLevel.forward) := by decide +kernel

example := C93_clique_predictions (L := Nat) plainGudhi plainGudhi_ok List.sum (fun _ _ h => h.sum_eq) 2 true
  edgeQ edgeQ_fits [kiteG, kiteH] (by simp) (by simpa using ⟨kiteG_ok, kiteH_ok⟩) 2

example := C93_ring_predictions plainGudhi plainGudhi_ok plainRings plainRings_ok List.sum
  (fun _ _ h => h.sum_eq) 4 true edgeBareQ edgeBareQ_fits [shedG, shedH] (by simp)
  (by simpa using ⟨shedG_ok, shedH_ok⟩) 2

end Examples

end Verif
