import Verif.Lemmas.Regular
import Verif.Props.Skeleton

/-!
# C91: strongly regular graphs

The SR experiments (`data/datasets/sr.py:37-38` gives all nodes the feature 1) compare embeddings of strongly regular
graphs with the same parameters (`exp/evaluate_sr_cwn_emb_mag.py`). Here is what clique complexes and rings of three
cannot do for such graphs, and what cliques of four nodes can.
-/

namespace Verif

variable {𝕜 R L : Type} [Field 𝕜] [AddCommGroup R] [Module 𝕜 R]

/-- Two graphs of the same size, with one feature for all nodes, and cliques that go on in as many ways, in both
graphs, up to dimension `m`. -/
def FGraph.Twins (m : Nat) (G H : FGraph R L) : Prop :=
  G.size = H.size ∧ ∃ (x : R) (c : Nat → Nat), (∀ y ∈ G.x, y = x) ∧ (∀ y ∈ H.x, y = x) ∧
    CliqueRegular G.edges G.size m c ∧ CliqueRegular H.edges H.size m c

theorem card_vertices {edges : List (Nat × Nat)} {size : Nat} (he : EdgesIn edges size) (k mB : Nat) :
    ((cliqueSets edges size k).upTo mB 0).card = size := by
  show (if 0 ≤ mB then cliqueSets edges size k 0 else ∅).card = size
  rw [if_pos (Nat.zero_le _), (skel_cliques he k).zero,
    Finset.card_image_of_injective _ Finset.singleton_injective, Finset.card_range]

/-- **C91** Clique complexes of graphs that look the same everywhere: if, in two graphs of the same size without
features, any `d + 1` nodes joined to each other have the same number of common neighbours, for each `d` below the
dimension of the complexes, then SparseCIN, CIN++ and CIN give them the same predictions, however many layers they
have. -/
theorem C91_regular_graphs_alike (g : Gudhi) (hg : g.Ok) (agg : List R → R)
    (hagg : ∀ l l' : List R, l.Perm l' → agg l = agg l') (k : Nat) (down : Bool)
    (sparse : SparseNet R (SparseLevel 𝕜 R)) (hs : sparse.Fits)
    (pp : SparseNet R (PPLevel 𝕜 R)) (hp : pp.Fits) (cin : CINNet R (CINLevel 𝕜 R)) (hc : cin.Fits)
    (Gs Hs : List (FGraph R L)) (hne : Gs ≠ []) (hG : ∀ G ∈ Gs ++ Hs, G.Ok) (mB : Nat)
    (hsame : List.Forall₂ (FGraph.Twins (min (max k 1) mB)) Gs Hs) :
    ∃ cs ds ps qs rs, mapE (FGraph.lift g agg k down) Gs = .ok cs ∧ mapE (FGraph.lift g agg k down) Hs = .ok ds ∧
      (fromComplexList cs mB >>= sparse.forward 𝕜 SparseLevel.forward) = .ok ps ∧
      (fromComplexList ds mB >>= sparse.forward 𝕜 SparseLevel.forward) = .ok ps ∧
      (fromComplexList cs mB >>= pp.forward 𝕜 PPLevel.forward) = .ok qs ∧
      (fromComplexList ds mB >>= pp.forward 𝕜 PPLevel.forward) = .ok qs ∧
      (fromComplexList cs mB >>= cin.forward 𝕜 CINLevel.forward) = .ok rs ∧
      (fromComplexList ds mB >>= cin.forward 𝕜 CINLevel.forward) = .ok rs := by
  have hne' : Hs ≠ [] := by
    rintro rfl
    cases hsame
    exact hne rfl
  obtain ⟨cs, e1, p1, p2, p3⟩ := C85_clique_predictions g hg agg hagg k down sparse hs pp hp cin hc Gs hne
    (fun G h => hG G (by simp [h])) mB
  obtain ⟨ds, e2, q1, q2, q3⟩ := C85_clique_predictions g hg agg hagg k down sparse hs pp hp cin hc Hs hne'
    (fun G h => hG G (by simp [h])) mB
  have hcard : ∀ G ∈ Gs, ∀ H ∈ Hs, G.size = H.size → ((cliqueSets G.edges G.size k).upTo mB 0).card =
      ((cliqueSets H.edges H.size k).upTo mB 0).card := by
    intro G h H h' e
    rw [card_vertices (hG G (by simp [h])).edges, card_vertices (hG H (by simp [h'])).edges, e]
  have hf : ∀ d, 0 < (fun d => if d = 0 then 0 else d + 1) (d + 1) := fun d => by simp
  refine ⟨cs, ds, _, _, _, e1, e2, p1, q1.trans ?_, p2, q2.trans ?_, p3, q3.trans ?_⟩ <;> rw [ok_inj] <;> symm
  · refine map_alike hsame fun G h H h' hS => ?_
    obtain ⟨e, x, c, hx, hx', hr, hr'⟩ := hS
    exact sparse.regular (reg_cliques hr) (reg_cliques hr') (hcard G h H h' e) hf
      (clique_const agg (hG G (by simp [h])).rows hx) (clique_const agg (hG H (by simp [h'])).rows hx') down
  · refine map_alike hsame fun G h H h' hS => ?_
    obtain ⟨e, x, c, hx, hx', hr, hr'⟩ := hS
    exact pp.regular (reg_cliques hr) (reg_cliques hr') (hcard G h H h' e) hf
      (clique_const agg (hG G (by simp [h])).rows hx) (clique_const agg (hG H (by simp [h'])).rows hx') down
  · refine map_alike hsame fun G h H h' hS => ?_
    obtain ⟨e, x, c, hx, hx', hr, hr'⟩ := hS
    exact cin.regular (reg_cliques hr) (reg_cliques hr') (hcard G h H h' e) hf
      (clique_const agg (hG G (by simp [h])).rows hx) (clique_const agg (hG H (by simp [h'])).rows hx') down

theorem stronglyRegular_cliques {edges : List (Nat × Nat)} {size k l m : Nat} (h : StronglyRegular edges size k l m)
    {n : Nat} (hn : n ≤ 2) : CliqueRegular edges size n (fun d => if d = 0 then k else l) := by
  intro d hd s hs hc hj
  have : d = 0 ∨ d = 1 := by omega
  rcases this with rfl | rfl
  · obtain ⟨v, rfl⟩ := Finset.card_eq_one.mp hc
    exact h.degree v (Finset.mem_range.mp (hs (Finset.mem_singleton_self v)))
  · obtain ⟨u, v, hne, rfl⟩ := Finset.card_eq_two.mp hc
    exact h.joined u (Finset.mem_range.mp (hs (by simp))) v (Finset.mem_range.mp (hs (by simp)))
      (hj u (by simp) v (by simp) hne)

/-- **C91** Strongly regular graphs with the same parameters, as in the SR dataset: on clique complexes of dimension 2
at most, SparseCIN, CIN++ and CIN give them the same predictions. -/
theorem C91_strongly_regular_cliques (g : Gudhi) (hg : g.Ok) (agg : List R → R)
    (hagg : ∀ l l' : List R, l.Perm l' → agg l = agg l') (k : Nat) (down : Bool)
    (sparse : SparseNet R (SparseLevel 𝕜 R)) (hs : sparse.Fits)
    (pp : SparseNet R (PPLevel 𝕜 R)) (hp : pp.Fits) (cin : CINNet R (CINLevel 𝕜 R)) (hc : cin.Fits)
    (G H : FGraph R L) (hG : G.Ok) (hH : H.Ok) (mB : Nat) (hdim : k ≤ 2 ∨ mB ≤ 2) (x : R)
    (hx : ∀ y ∈ G.x ++ H.x, y = x) (size degree l m : Nat) (hsize : G.size = size ∧ H.size = size)
    (hGr : StronglyRegular G.edges size degree l m) (hHr : StronglyRegular H.edges size degree l m) :
    ∃ c d p q r, G.lift g agg k down = .ok c ∧ H.lift g agg k down = .ok d ∧
      (fromComplexList [c] mB >>= sparse.forward 𝕜 SparseLevel.forward) = .ok p ∧
      (fromComplexList [d] mB >>= sparse.forward 𝕜 SparseLevel.forward) = .ok p ∧
      (fromComplexList [c] mB >>= pp.forward 𝕜 PPLevel.forward) = .ok q ∧
      (fromComplexList [d] mB >>= pp.forward 𝕜 PPLevel.forward) = .ok q ∧
      (fromComplexList [c] mB >>= cin.forward 𝕜 CINLevel.forward) = .ok r ∧
      (fromComplexList [d] mB >>= cin.forward 𝕜 CINLevel.forward) = .ok r := by
  obtain ⟨rfl, h2⟩ := hsize
  have hm : min (max k 1) mB ≤ 2 := by omega
  obtain ⟨cs, ds, p, q, r, e1, e2, rest⟩ := C91_regular_graphs_alike g hg agg hagg k down sparse hs pp hp cin hc [G] [H]
    (by simp) (by simpa using ⟨hG, hH⟩) mB (.cons ⟨h2.symm, x, _, fun y hy => hx y (by simp [hy]),
      fun y hy => hx y (by simp [hy]), stronglyRegular_cliques hGr hm, by
        rw [h2]
        exact stronglyRegular_cliques hHr hm⟩ .nil)
  rw [mapE_eq_ok_iff] at e1 e2
  cases e1 with
  | cons h1 hrest =>
    cases hrest
    cases e2 with
    | cons h2 hrest =>
      cases hrest
      exact ⟨_, _, p, q, r, h1, h2, rest⟩

section
variable [DecidableEq R]

/-- **C91** With rings of three at most and no features of edges, SparseCIN, CIN++ and CIN give ring complexes the
predictions that they give clique complexes of dimension 2. -/
theorem C91_rings_of_three (g : Gudhi) (hg : g.Ok) (lib : RingLib) (hl : lib.Ok) (agg : List R → R)
    (hagg : ∀ l l' : List R, l.Perm l' → agg l = agg l') (down : Bool)
    (sparse : SparseNet R (SparseLevel 𝕜 R)) (hs : sparse.Fits)
    (pp : SparseNet R (PPLevel 𝕜 R)) (hp : pp.Fits) (cin : CINNet R (CINLevel 𝕜 R)) (hc : cin.Fits)
    (Gs : List (RGraph R L)) (hne : Gs ≠ []) (hG : ∀ G ∈ Gs, G.Ok ∧ G.attr = none) (mB : Nat) :
    ∃ cs ds ps qs rs, mapE (RGraph.lift g lib agg 3 down true true) Gs = .ok cs ∧
      mapE (FGraph.lift g agg 2 down) (Gs.map RGraph.bare) = .ok ds ∧
      (fromComplexList cs mB >>= sparse.forward 𝕜 SparseLevel.forward) = .ok ps ∧
      (fromComplexList ds mB >>= sparse.forward 𝕜 SparseLevel.forward) = .ok ps ∧
      (fromComplexList cs mB >>= pp.forward 𝕜 PPLevel.forward) = .ok qs ∧
      (fromComplexList ds mB >>= pp.forward 𝕜 PPLevel.forward) = .ok qs ∧
      (fromComplexList cs mB >>= cin.forward 𝕜 CINLevel.forward) = .ok rs ∧
      (fromComplexList ds mB >>= cin.forward 𝕜 CINLevel.forward) = .ok rs := by
  obtain ⟨cs, e1, p1, p2, p3⟩ := C85_ring_predictions g hg lib hl agg hagg 3 down sparse hs pp hp cin hc Gs hne
    (fun G h => (hG G h).1) mB
  obtain ⟨ds, e2, q1, q2, q3⟩ := C85_clique_predictions g hg agg hagg 2 down sparse hs pp hp cin hc (Gs.map RGraph.bare)
    (by simpa using hne) (by
      intro F hF
      obtain ⟨G, h, rfl⟩ := List.mem_map.mp hF
      obtain ⟨h, -⟩ := hG G h
      exact ⟨h.pos, h.rows, h.edges, h.labels⟩) mB
  have hfeat : ∀ G ∈ Gs, ringSets G.edges G.size 3 = cliqueSets G.edges G.size 2 ∧
      G.features agg = cliqueFeatures agg G.x := by
    intro G h
    obtain ⟨ho, ha⟩ := hG G h
    refine ⟨ringSets_three ho.edges, ?_⟩
    funext d s
    match d with
    | 0 => rfl
    | 1 => simp only [RGraph.features, ha, cliqueFeatures]
    | d + 2 => rfl
  refine ⟨cs, ds, _, _, _, e1, e2, p1, q1.trans ?_, p2, q2.trans ?_, p3, q3.trans ?_⟩ <;> rw [ok_inj, List.map_map] <;>
    refine List.map_congr_left fun G h => ?_ <;> rw [(hfeat G h).1, (hfeat G h).2] <;> rfl

end

/-! ### Graphs of the SR dataset -/

namespace Fixtures

/-- The edge index of the graph with `n` nodes joined as `adj` says. -/
def adjEdges (n : Nat) (adj : Nat → Nat → Bool) : List (Nat × Nat) :=
  (List.range n).flatMap fun u => ((List.range n).filter fun v => adj u v).map fun v => (u, v)

/-- The moves of a rook on a board of four by four squares. -/
def rookAdj (u v : Nat) : Bool := decide (u ≠ v) && (decide (u / 4 = v / 4) || decide (u % 4 = v % 4))

/-- The Shrikhande graph: steps of ±(1, 0), ±(0, 1) and ±(1, 1) on a torus of four by four squares. -/
def shrikAdj (u v : Nat) : Bool :=
  decide (((v / 4 + 4 - u / 4) % 4, (v % 4 + 4 - u % 4) % 4) ∈ [(1, 0), (3, 0), (0, 1), (0, 3), (1, 1), (3, 3)])

def rookG : RGraph ℚ Nat := ⟨16, List.replicate 16 1, adjEdges 16 rookAdj, none, none⟩
def shrikG : RGraph ℚ Nat := ⟨16, List.replicate 16 1, adjEdges 16 shrikAdj, none, none⟩

/-- What makes `adj` the adjacency of a graph. -/
structure AdjOk (n : Nat) (adj : Nat → Nat → Bool) : Prop where
  irrefl : ∀ u < n, adj u u = false
  symm : ∀ u < n, ∀ v < n, adj u v = adj v u

theorem mem_adjEdges {n : Nat} {adj : Nat → Nat → Bool} {u v : Nat} :
    (u, v) ∈ adjEdges n adj ↔ u < n ∧ v < n ∧ adj u v = true := by
  simp [adjEdges]

theorem joined_adj {n : Nat} {adj : Nat → Nat → Bool} (h : AdjOk n adj) {u v : Nat} :
    Joined (adjEdges n adj) u v ↔ u < n ∧ v < n ∧ adj u v = true := by
  unfold Joined
  rw [mem_adjEdges, mem_adjEdges]
  constructor
  · rintro ⟨-, h1 | ⟨hv, hu, h1⟩⟩
    · exact h1
    · exact ⟨hu, hv, by rw [h.symm u hu v hv, h1]⟩
  · rintro ⟨hu, hv, h1⟩
    refine ⟨?_, .inl ⟨hu, hv, h1⟩⟩
    rintro rfl
    rw [h.irrefl u hu] at h1
    cases h1

theorem adj_simple {n : Nat} {adj : Nat → Nat → Bool} (h : AdjOk n adj) :
    EdgesIn (adjEdges n adj) n ∧ NoLoops (adjEdges n adj) ∧ Simple (adjEdges n adj) := by
  refine ⟨fun e he => ?_, fun e he => ?_, ?_, fun u v he => ?_⟩
  · obtain ⟨u, v⟩ := e
    obtain ⟨hu, hv, -⟩ := mem_adjEdges.mp he
    exact ⟨hu, hv⟩
  · obtain ⟨u, v⟩ := e
    obtain ⟨hu, hv, h1⟩ := mem_adjEdges.mp he
    intro e
    obtain rfl : u = v := e
    rw [h.irrefl u hu] at h1
    cases h1
  · unfold adjEdges
    rw [List.nodup_flatMap]
    refine ⟨fun u _ => (List.nodup_range.filter _).map fun a b e => (Prod.mk.inj e).2, ?_⟩
    refine List.nodup_range.imp ?_
    intro a b hab p hp hq
    obtain ⟨v, -, rfl⟩ := List.mem_map.mp hp
    obtain ⟨w, -, e⟩ := List.mem_map.mp hq
    exact hab (Prod.mk.inj e).1.symm
  · obtain ⟨hu, hv, h1⟩ := mem_adjEdges.mp he
    exact mem_adjEdges.mpr ⟨hv, hu, by rw [← h.symm u hu v hv, h1]⟩

theorem adj_regular {n k l m : Nat} {adj : Nat → Nat → Bool} (h : AdjOk n adj)
    (h1 : ∀ v < n, ((List.range n).filter fun w => adj v w).length = k)
    (h2 : ∀ u < n, ∀ v < n, adj u v = true → ((List.range n).filter fun w => adj u w && adj v w).length = l)
    (h3 : ∀ u < n, ∀ v < n, u ≠ v → adj u v = false →
      ((List.range n).filter fun w => adj u w && adj v w).length = m) :
    StronglyRegular (adjEdges n adj) n k l m := by
  have one : ∀ v < n, (commonNeighbours (adjEdges n adj) n {v}).card = ((List.range n).filter fun w => adj v w).length := by
    intro v hv
    rw [← List.toFinset_card_of_nodup (List.nodup_range.filter _)]
    congr 1
    ext w
    simp only [commonNeighbours, Finset.mem_filter, Finset.mem_range, Finset.mem_singleton, forall_eq, joined_adj h,
      List.mem_toFinset, List.mem_filter, List.mem_range]
    tauto
  have two : ∀ u < n, ∀ v < n, (commonNeighbours (adjEdges n adj) n {u, v}).card =
      ((List.range n).filter fun w => adj u w && adj v w).length := by
    intro u hu v hv
    rw [← List.toFinset_card_of_nodup (List.nodup_range.filter _)]
    congr 1
    ext w
    simp only [commonNeighbours, Finset.mem_filter, Finset.mem_range, Finset.mem_insert, Finset.mem_singleton,
      forall_eq_or_imp, forall_eq, joined_adj h, List.mem_toFinset, List.mem_filter, List.mem_range, Bool.and_eq_true]
    tauto
  refine ⟨fun v hv => (one v hv).trans (h1 v hv), fun u hu v hv hj => ?_, fun u hu v hv hne hj => ?_⟩
  · rw [two u hu v hv]
    exact h2 u hu v hv ((joined_adj h).mp hj).2.2
  · rw [two u hu v hv]
    refine h3 u hu v hv hne ?_
    rw [joined_adj h] at hj
    simpa [hu, hv] using hj

theorem rook_adj : AdjOk 16 rookAdj := ⟨by decide, by decide⟩
theorem shrik_adj : AdjOk 16 shrikAdj := ⟨by decide +kernel, by decide +kernel⟩

theorem rookG_ok : rookG.Ok ∧ Simple rookG.edges := by
  obtain ⟨h1, h2, h3⟩ := adj_simple rook_adj
  exact ⟨⟨by decide, rfl, h1, h2, (fun a h => by cases h), (fun a h => by cases h)⟩, h3⟩

theorem shrikG_ok : shrikG.Ok ∧ Simple shrikG.edges := by
  obtain ⟨h1, h2, h3⟩ := adj_simple shrik_adj
  exact ⟨⟨by decide, rfl, h1, h2, (fun a h => by cases h), (fun a h => by cases h)⟩, h3⟩

theorem rookG_regular : StronglyRegular rookG.edges 16 6 2 2 :=
  adj_regular rook_adj (by decide +kernel) (by decide +kernel) (by decide +kernel)

theorem shrikG_regular : StronglyRegular shrikG.edges 16 6 2 2 :=
  adj_regular shrik_adj (by decide +kernel) (by decide +kernel) (by decide +kernel)

theorem rookG_clique : cliqueNumber rookG.edges 16 3 ≠ 0 := by
  unfold cliqueNumber
  rw [Finset.card_ne_zero]
  refine ⟨{0, 1, 2, 3}, Finset.mem_filter.mpr ⟨Finset.mem_powersetCard.mpr ⟨by decide, rfl⟩, ?_⟩⟩
  have h : ∀ u ∈ ({0, 1, 2, 3} : Finset Nat), ∀ v ∈ ({0, 1, 2, 3} : Finset Nat), u ≠ v →
      u < 16 ∧ v < 16 ∧ rookAdj u v = true := by decide
  exact fun u hu v hv hne => (joined_adj rook_adj).mpr (h u hu v hv hne)

theorem shrikG_no_clique : cliqueNumber shrikG.edges 16 3 = 0 := by
  have none : ∀ a ∈ List.range 16, ∀ b ∈ (List.range 16).filter (shrikAdj a),
      ∀ c ∈ ((List.range 16).filter (shrikAdj a)).filter (shrikAdj b),
        ((((List.range 16).filter (shrikAdj a)).filter (shrikAdj b)).filter (shrikAdj c)) = [] := by decide +kernel
  unfold cliqueNumber
  rw [Finset.card_eq_zero, Finset.eq_empty_iff_forall_notMem]
  intro s hs
  obtain ⟨hs, hj⟩ := Finset.mem_filter.mp hs
  obtain ⟨hr, hc⟩ := Finset.mem_powersetCard.mp hs
  obtain ⟨a, t, ha, rfl, ht⟩ := Finset.card_eq_succ.mp hc
  obtain ⟨b, c, d, hbc, hbd, hcd, rfl⟩ := Finset.card_eq_three.mp ht
  simp only [Finset.mem_insert, Finset.mem_singleton, not_or] at ha
  have key : ∀ u ∈ insert a ({b, c, d} : Finset Nat), ∀ v ∈ insert a ({b, c, d} : Finset Nat), u ≠ v →
      u < 16 ∧ v < 16 ∧ shrikAdj u v = true := fun u hu v hv hne => (joined_adj shrik_adj).mp (hj u hu v hv hne)
  obtain ⟨h1, h2, h3⟩ := key a (by simp) b (by simp) ha.1
  obtain ⟨-, h4, h5⟩ := key a (by simp) c (by simp) ha.2.1
  obtain ⟨-, h6, h7⟩ := key a (by simp) d (by simp) ha.2.2
  obtain ⟨-, -, h8⟩ := key b (by simp) c (by simp) hbc
  obtain ⟨-, -, h9⟩ := key b (by simp) d (by simp) hbd
  obtain ⟨-, -, h10⟩ := key c (by simp) d (by simp) hcd
  have h := none a (List.mem_range.mpr h1) b (List.mem_filter.mpr ⟨List.mem_range.mpr h2, h3⟩) c
    (List.mem_filter.mpr ⟨List.mem_filter.mpr ⟨List.mem_range.mpr h4, h5⟩, h8⟩)
  have hd : d ∈ (((List.range 16).filter (shrikAdj a)).filter (shrikAdj b)).filter (shrikAdj c) :=
    List.mem_filter.mpr ⟨List.mem_filter.mpr ⟨List.mem_filter.mpr ⟨List.mem_range.mpr h6, h7⟩, h9⟩, h10⟩
  rw [h] at hd
  cases hd

/-- The induced cycles of four nodes, each once: from the smallest node on, towards its smaller neighbour. -/
def fourRings (n : Nat) (adj : Nat → Nat → Bool) : List (List Nat) :=
  (List.range n).flatMap fun a => ((List.range n).filter fun b => decide (a < b) && adj a b).flatMap fun b =>
    ((List.range n).filter fun c => decide (a < c) && (adj b c && !adj a c)).flatMap fun c =>
      ((List.range n).filter fun d => decide (b < d) && (adj c d && (adj d a && !adj b d))).map fun d => [a, b, c, d]

theorem mem_fourRings {n : Nat} {adj : Nat → Nat → Bool} {r : List Nat} : r ∈ fourRings n adj ↔
    ∃ a b c d, r = [a, b, c, d] ∧ (a < n ∧ b < n ∧ c < n ∧ d < n) ∧ (a < b ∧ a < c ∧ b < d) ∧
      (adj a b = true ∧ adj b c = true ∧ adj c d = true ∧ adj d a = true) ∧ adj a c = false ∧ adj b d = false := by
  simp only [fourRings, List.mem_flatMap, List.mem_map, List.mem_filter, List.mem_range, Bool.and_eq_true,
    decide_eq_true_eq, Bool.not_eq_true']
  constructor
  · rintro ⟨a, ha, b, ⟨hb, h1, h2⟩, c, ⟨hc, h3, h4, h5⟩, d, ⟨hd, h6, h7, h8, h9⟩, rfl⟩
    exact ⟨a, b, c, d, rfl, ⟨ha, hb, hc, hd⟩, ⟨h1, h3, h6⟩, ⟨h2, h4, h7, h8⟩, h5, h9⟩
  · rintro ⟨a, b, c, d, rfl, ⟨ha, hb, hc, hd⟩, ⟨h1, h3, h6⟩, ⟨h2, h4, h7, h8⟩, h5, h9⟩
    exact ⟨a, ha, b, ⟨hb, h1, h2⟩, c, ⟨hc, h3, h4, h5⟩, d, ⟨hd, h6, h7, h8, h9⟩, rfl⟩

/-- What an induced cycle of four nodes is. -/
theorem isRing_four {n : Nat} {adj : Nat → Nat → Bool} (h : AdjOk n adj) {a b c d : Nat} :
    IsRing (adjEdges n adj) [a, b, c, d] ↔ (a < n ∧ b < n ∧ c < n ∧ d < n) ∧ (a ≠ c ∧ b ≠ d) ∧
      (adj a b = true ∧ adj b c = true ∧ adj c d = true ∧ adj d a = true) ∧ adj a c = false ∧ adj b d = false := by
  have irr : ∀ {u v}, u < n → adj u v = true → u ≠ v := by
    rintro u v hu h1 rfl
    rw [h.irrefl u hu] at h1
    cases h1
  constructor
  · rintro ⟨-, hn, hj⟩
    have hj' : ∀ i < 4, ∀ j < 4, (Joined (adjEdges n adj) ([a, b, c, d].getD i 0) ([a, b, c, d].getD j 0) ↔
        Follows 4 i j ∨ Follows 4 j i) := by
      intro i hi j hj2
      have e : ∀ i < 4, [a, b, c, d][i]? = some ([a, b, c, d].getD i 0) := by
        intro i hi
        rw [List.getD_eq_getElem?_getD, List.getElem?_eq_getElem (show i < [a, b, c, d].length from hi)]
        rfl
      exact hj i j _ _ (e i hi) (e j hj2)
    obtain ⟨ha, hb, h1⟩ := (joined_adj h).mp ((hj' 0 (by decide) 1 (by decide)).mpr (by decide))
    obtain ⟨-, hc, h2⟩ := (joined_adj h).mp ((hj' 1 (by decide) 2 (by decide)).mpr (by decide))
    obtain ⟨-, hd, h3⟩ := (joined_adj h).mp ((hj' 2 (by decide) 3 (by decide)).mpr (by decide))
    obtain ⟨-, -, h4⟩ := (joined_adj h).mp ((hj' 3 (by decide) 0 (by decide)).mpr (by decide))
    have h5 := mt (hj' 0 (by decide) 2 (by decide)).mp (by decide)
    have h6 := mt (hj' 1 (by decide) 3 (by decide)).mp (by decide)
    rw [joined_adj h] at h5 h6
    simp only [List.getD_cons_zero, List.getD_cons_succ] at *
    simp only [List.nodup_cons, List.mem_cons, List.not_mem_nil, or_false, not_or, List.nodup_nil] at hn
    refine ⟨⟨ha, hb, hc, hd⟩, ⟨hn.1.2.1, hn.2.1.2⟩, ⟨h1, h2, h3, h4⟩, ?_, ?_⟩
    · simpa [ha, hc] using h5
    · simpa [hb, hd] using h6
  · rintro ⟨⟨ha, hb, hc, hd⟩, ⟨h1, h2⟩, ⟨h3, h4, h5, h6⟩, h7, h8⟩
    have n1 := irr ha h3
    have n2 := irr hb h4
    have n3 := irr hc h5
    have n4 := irr hd h6
    refine ⟨by simp, by simp [n1, n2, n3, h1, h2, n4.symm], ?_⟩
    intro i j u v hu hv
    have hi := lt_of_get hu
    have hj := lt_of_get hv
    simp only [List.length_cons, List.length_nil] at hi hj ⊢
    rw [joined_adj h]
    have s := h.symm
    have hi' : i = 0 ∨ i = 1 ∨ i = 2 ∨ i = 3 := by omega
    have hj' : j = 0 ∨ j = 1 ∨ j = 2 ∨ j = 3 := by omega
    rcases hi' with rfl | rfl | rfl | rfl <;> rcases hj' with rfl | rfl | rfl | rfl <;> simp at hu hv <;> subst hu <;>
      subst hv <;> simp [Follows, ha, hb, hc, hd, h3, h4, h5, h6, h7, h8, h.irrefl a ha, h.irrefl b hb, h.irrefl c hc, h.irrefl d hd,
        s b hb a ha, s c hc b hb, s d hd c hc, s a ha d hd, s c hc a ha, s d hd b hb]

theorem perm_four {a b c d : Nat} (hn : [a, b, c, d].Nodup) {r : List Nat} (hr : r.Nodup)
    (h : ∀ x, x ∈ r ↔ x = a ∨ x = b ∨ x = c ∨ x = d) : r.Perm [a, b, c, d] :=
  (List.perm_ext_iff_of_nodup hr hn).mpr fun x => by rw [h]; simp

theorem ringCount_four {n : Nat} {adj : Nat → Nat → Bool} (h : AdjOk n adj)
    (hp : (fourRings n adj).Pairwise fun a b => ¬ a.Perm b) :
    RingCount (adjEdges n adj) 4 (fourRings n adj).length := by
  refine ⟨_, rfl, hp, ?_, ?_⟩
  · intro r hr
    obtain ⟨a, b, c, d, rfl, h1, h2, h3, h4⟩ := mem_fourRings.mp hr
    exact ⟨rfl, (isRing_four h).mpr ⟨h1, ⟨by omega, by omega⟩, h3, h4⟩⟩
  · intro r hr hring
    obtain ⟨a, b, c, d, rfl⟩ : ∃ a b c d, r = [a, b, c, d] := by
      match r, hr with
      | [a, b, c, d], _ => exact ⟨a, b, c, d, rfl⟩
    have hn := hring.nodup
    obtain ⟨⟨ha, hb, hc, hd⟩, ⟨h1, h2⟩, ⟨h3, h4, h5, h6⟩, h7, h8⟩ := (isRing_four h).mp hring
    have s := h.symm
    have mem : ∀ {p q r s}, p < q ∧ p < r ∧ q < s → IsRing (adjEdges n adj) [p, q, r, s] →
        [p, q, r, s] ∈ fourRings n adj := by
      intro p q r s hlt hr
      obtain ⟨g1, -, g2⟩ := (isRing_four h).mp hr
      exact mem_fourRings.mpr ⟨p, q, r, s, rfl, g1, hlt, g2⟩
    have turn : ∀ {p q r s}, IsRing (adjEdges n adj) [p, q, r, s] → IsRing (adjEdges n adj) [q, r, s, p] := by
      intro p q r s hr
      obtain ⟨⟨ha, hb, hc, hd⟩, ⟨h1, h2⟩, ⟨h3, h4, h5, h6⟩, h7, h8⟩ := (isRing_four h).mp hr
      exact (isRing_four h).mpr ⟨⟨hb, hc, hd, ha⟩, ⟨h2, h1.symm⟩, ⟨h4, h5, h6, h3⟩, h8, by rw [h.symm _ hc _ ha, h7]⟩
    have back : ∀ {p q r s}, IsRing (adjEdges n adj) [p, q, r, s] → IsRing (adjEdges n adj) [p, s, r, q] := by
      intro p q r s hr
      obtain ⟨⟨ha, hb, hc, hd⟩, ⟨h1, h2⟩, ⟨h3, h4, h5, h6⟩, h7, h8⟩ := (isRing_four h).mp hr
      exact (isRing_four h).mpr ⟨⟨ha, hd, hc, hb⟩, ⟨h1, h2.symm⟩, ⟨by rw [h.symm _ ha _ hd, h6], by rw [h.symm _ hd _ hc, h5],
        by rw [h.symm _ hc _ hb, h4], by rw [h.symm _ hb _ ha, h3]⟩, h7, by rw [h.symm _ hd _ hb, h8]⟩
    have done : ∀ {p q r s}, IsRing (adjEdges n adj) [p, q, r, s] → p < q ∧ p < r ∧ q < s →
        (∀ x, x ∈ [p, q, r, s] ↔ x = a ∨ x = b ∨ x = c ∨ x = d) →
        ∃ r' ∈ fourRings n adj, r'.Perm [a, b, c, d] :=
      fun hr hlt hx => ⟨_, mem hlt hr, perm_four hn hr.nodup hx⟩
    have first : ∀ {p q r s}, IsRing (adjEdges n adj) [p, q, r, s] → p < q ∧ p < r ∧ p < s →
        (∀ x, x ∈ [p, q, r, s] ↔ x = a ∨ x = b ∨ x = c ∨ x = d) →
        ∃ r' ∈ fourRings n adj, r'.Perm [a, b, c, d] := by
      intro p q r s hr hlt hx
      rcases Nat.lt_or_ge q s with hqs | hqs
      · exact done hr ⟨hlt.1, hlt.2.1, hqs⟩ hx
      · have : q ≠ s := ((isRing_four h).mp hr).2.1.2
        refine done (back hr) ⟨hlt.2.2, hlt.2.1, by omega⟩ fun x => ?_
        rw [← hx]
        simp only [List.mem_cons, List.not_mem_nil, or_false]
        tauto
    simp only [List.nodup_cons, List.mem_cons, List.not_mem_nil, or_false, not_or] at hn
    have hmin : (a < b ∧ a < c ∧ a < d) ∨ (b < c ∧ b < d ∧ b < a) ∨ (c < d ∧ c < a ∧ c < b) ∨
        (d < a ∧ d < b ∧ d < c) := by omega
    rcases hmin with hm | hm | hm | hm
    · exact first hring hm fun x => by simp
    · exact first (turn hring) hm fun x => by simp; tauto
    · exact first (turn (turn hring)) hm fun x => by simp; tauto
    · exact first (turn (turn (turn hring))) hm fun x => by simp; tauto

theorem rookG_rings : RingCount rookG.edges 4 36 := by
  have e : (fourRings 16 rookAdj).length = 36 := by decide +kernel
  exact e ▸ ringCount_four rook_adj (by decide +kernel)

theorem shrikG_rings : RingCount shrikG.edges 4 12 := by
  have e : (fourRings 16 shrikAdj).length = 12 := by decide +kernel
  exact e ▸ ringCount_four shrik_adj (by decide +kernel)

end Fixtures

open Fixtures in
/-- **C91** Two strongly regular graphs with the same parameters to which every SparseCIN, CIN++ and CIN gives the same
predictions on clique complexes of dimension 2 and on ring complexes with rings of three, and which some SparseCIN with
one layer tells apart on clique complexes of dimension 3 and more. -/
theorem C91_dimension_three_sees_more : ∃ G H : RGraph ℚ Nat, (G.Ok ∧ Simple G.edges) ∧ (H.Ok ∧ Simple H.edges) ∧
    G.size = H.size ∧ (∃ k l m, StronglyRegular G.edges G.size k l m ∧ StronglyRegular H.edges H.size k l m) ∧
    (∀ (g : Gudhi) (_ : g.Ok) (lib : RingLib) (_ : lib.Ok) (agg : List ℚ → ℚ)
      (_ : ∀ l l' : List ℚ, l.Perm l' → agg l = agg l') (down : Bool)
      (sparse : SparseNet ℚ (SparseLevel ℚ ℚ)) (_ : sparse.Fits)
      (pp : SparseNet ℚ (PPLevel ℚ ℚ)) (_ : pp.Fits) (cin : CINNet ℚ (CINLevel ℚ ℚ)) (_ : cin.Fits) (mB : Nat),
      ∃ c c' d d' p q r, G.bare.lift g agg 2 down = .ok c ∧ G.lift g lib agg 3 down true true = .ok c' ∧
        H.bare.lift g agg 2 down = .ok d ∧ H.lift g lib agg 3 down true true = .ok d' ∧
        ∀ z ∈ [c, c', d, d'],
          (fromComplexList [z] mB >>= sparse.forward ℚ SparseLevel.forward) = .ok p ∧
          (fromComplexList [z] mB >>= pp.forward ℚ PPLevel.forward) = .ok q ∧
          (fromComplexList [z] mB >>= cin.forward ℚ CINLevel.forward) = .ok r) ∧
    ∃ cin : SparseNet ℚ (SparseLevel ℚ ℚ), cin.Fits ∧ cin.convs.length = 1 ∧
      ∀ (g : Gudhi) (_ : g.Ok) (agg : List ℚ → ℚ) (_ : ∀ l l' : List ℚ, l.Perm l' → agg l = agg l') (k : Nat)
        (_ : 3 ≤ k) (down : Bool) (mB : Nat) (_ : 3 ≤ mB), ∃ c d p q,
          G.bare.lift g agg k down = .ok c ∧ H.bare.lift g agg k down = .ok d ∧
          (fromComplexList [c] mB >>= cin.forward ℚ SparseLevel.forward) = .ok [p] ∧
          (fromComplexList [d] mB >>= cin.forward ℚ SparseLevel.forward) = .ok [q] ∧ p ≠ q := by
  refine ⟨rookG, shrikG, rookG_ok, shrikG_ok, rfl, ⟨6, 2, 2, rookG_regular, shrikG_regular⟩, ?_, ?_⟩
  · intro g hg lib hl agg hagg down sparse hs pp hp cin hc mB
    obtain ⟨c, d, p, q, r, e1, e2, a1, a2, a3, a4, a5, a6⟩ := C91_strongly_regular_cliques g hg agg hagg 2 down sparse hs pp
      hp cin hc rookG.bare shrikG.bare (bare_usual rookG_ok).1 (bare_usual shrikG_ok).1 mB (.inl (Nat.le_refl _)) 1
      (fun _ hy => List.eq_of_mem_replicate (n := 32) hy) 16 6 2 2 ⟨rfl, rfl⟩ rookG_regular shrikG_regular
    have three : ∀ (G : RGraph ℚ Nat) (c : Complex ℚ Nat), G.Ok → G.attr = none → G.bare.lift g agg 2 down = .ok c →
        ∃ c', G.lift g lib agg 3 down true true = .ok c' ∧
          (fromComplexList [c'] mB >>= sparse.forward ℚ SparseLevel.forward) =
            (fromComplexList [c] mB >>= sparse.forward ℚ SparseLevel.forward) ∧
          (fromComplexList [c'] mB >>= pp.forward ℚ PPLevel.forward) =
            (fromComplexList [c] mB >>= pp.forward ℚ PPLevel.forward) ∧
          (fromComplexList [c'] mB >>= cin.forward ℚ CINLevel.forward) =
            (fromComplexList [c] mB >>= cin.forward ℚ CINLevel.forward) := by
      intro G c hG ha hc'
      obtain ⟨cs, ds, ps, qs, rs, f1, f2, b1, b2, b3, b4, b5, b6⟩ := C91_rings_of_three g hg lib hl agg hagg down sparse hs
        pp hp cin hc [G] (by simp) (by simpa using ⟨hG, ha⟩) mB
      rw [mapE_eq_ok_iff] at f1 f2
      cases f1 with
      | cons h1 hrest =>
        cases hrest
        cases f2 with
        | cons h2 hrest =>
          cases hrest
          rw [hc'] at h2
          cases h2
          exact ⟨_, h1, b1.trans b2.symm, b3.trans b4.symm, b5.trans b6.symm⟩
    obtain ⟨c', f1, b1, b2, b3⟩ := three rookG c rookG_ok.1 rfl e1
    obtain ⟨d', f2, b4, b5, b6⟩ := three shrikG d shrikG_ok.1 rfl e2
    refine ⟨c, c', d, d', p, q, r, e1, f1, e2, f2, ?_⟩
    intro z hz
    simp only [List.mem_cons, List.not_mem_nil, or_false] at hz
    rcases hz with rfl | rfl | rfl | rfl
    · exact ⟨a1, a3, a5⟩
    · exact ⟨b1.trans a1, b2.trans a3, b3.trans a5⟩
    · exact ⟨a2, a4, a6⟩
    · exact ⟨b4.trans a2, b5.trans a4, b6.trans a6⟩
  · obtain ⟨cin, hfits, hlen, hc⟩ := C90_counts_cliques (L := Nat) 3
    refine ⟨cin, hfits, hlen, ?_⟩
    intro g hg agg hagg k hk down mB hmB
    have one : ∀ G : FGraph ℚ Nat, G.Ok → ∃ c, FGraph.lift g agg k down G = .ok c ∧
        (fromComplexList [c] mB >>= cin.forward ℚ SparseLevel.forward) =
          .ok [(cliqueNumber G.edges G.size 3 : ℚ)] := by
      intro G hG
      obtain ⟨cs, e1, e2⟩ := hc g hg agg hagg k hk down [G] (by simp) (by simpa using hG) mB hmB
      rw [mapE_eq_ok_iff] at e1
      cases e1 with
      | cons h hrest =>
        cases hrest
        exact ⟨_, h, e2⟩
    obtain ⟨c, a1, a2⟩ := one rookG.bare (bare_usual rookG_ok).1
    obtain ⟨d, b1, b2⟩ := one shrikG.bare (bare_usual shrikG_ok).1
    refine ⟨c, d, _, _, a1, b1, a2, b2, ?_⟩
    rw [show cliqueNumber shrikG.bare.edges shrikG.bare.size 3 = 0 from shrikG_no_clique]
    intro e
    exact rookG_clique (by exact_mod_cast e)

open Fixtures in
/-- **C91** Rings of four tell strongly regular graphs apart that cliques of three nodes do not: some SparseCIN gives
the ring complexes of the rook's graph and the Shrikhande graph (see above) different predictions, whatever the limit on
the size of rings is, from four on. -/
theorem C91_rings_of_four : ∃ cin : SparseNet ℚ (SparseLevel ℚ ℚ), cin.Fits ∧
    ∀ (g : Gudhi) (_ : g.Ok) (lib : RingLib) (_ : lib.Ok) (agg : List ℚ → ℚ) (maxK : Nat) (_ : 4 ≤ maxK)
      (down : Bool) (mB : Nat) (_ : 2 ≤ mB), ∃ c d,
        rookG.lift g lib agg maxK down true true = .ok c ∧ shrikG.lift g lib agg maxK down true true = .ok d ∧
        (fromComplexList [c] mB >>= cin.forward ℚ SparseLevel.forward) = .ok [36] ∧
        (fromComplexList [d] mB >>= cin.forward ℚ SparseLevel.forward) = .ok [12] := by
  obtain ⟨cin, hfits, -, hc⟩ := C68_cin_counts_rings (L := Nat) 4 (by omega)
  refine ⟨cin, hfits, ?_⟩
  intro g hg lib hl agg maxK hk down mB hmB
  have one : ∀ (G : RGraph ℚ Nat) (n : Nat), G.Ok ∧ Simple G.edges → RingCount G.edges 4 n →
      ∃ c, RGraph.lift g lib agg maxK down true true G = .ok c ∧
        (fromComplexList [c] mB >>= cin.forward ℚ SparseLevel.forward) = .ok [(n : ℚ)] := by
    intro G n hG hn
    obtain ⟨cs, preds, e1, e2, e3⟩ := hc g hg lib hl agg maxK hk down [G] (by simp) (by simpa using hG) mB hmB
    cases e3 with
    | cons hp hrest =>
      cases hrest
      obtain ⟨m, hm, rfl⟩ := hp
      rw [mapE_eq_ok_iff] at e1
      cases e1 with
      | cons h hrest =>
        cases hrest
        rw [ringCount_unique hm hn] at e2
        exact ⟨_, h, e2⟩
  obtain ⟨c, a1, a2⟩ := one rookG 36 rookG_ok rookG_rings
  obtain ⟨d, b1, b2⟩ := one shrikG 12 shrikG_ok shrikG_rings
  exact ⟨c, d, a1, b1, a2, b2⟩

/-! ### Examples -/

section Examples
open Fixtures

example := C91_strongly_regular_cliques (L := Nat) plainGudhi plainGudhi_ok List.sum (fun _ _ h => h.sum_eq) 5 true
  sparseNetQ sparseNetQ_fits ppNetQ ppNetQ_fits cinNetQ cinNetQ_fits rookG.bare shrikG.bare (bare_usual rookG_ok).1
  (bare_usual shrikG_ok).1 2 (.inr (Nat.le_refl _)) 1 (fun _ hy => List.eq_of_mem_replicate (n := 32) hy) 16 6 2 2
  ⟨rfl, rfl⟩ rookG_regular shrikG_regular

/-- The hexagon and the two triangles, cut off at the edges; the triangles are no cliques of a higher dimension there. -/
example := C91_regular_graphs_alike (L := Nat) plainGudhi plainGudhi_ok List.sum (fun _ _ h => h.sum_eq) 2 true
  sparseNetQ sparseNetQ_fits ppNetQ ppNetQ_fits cinNetQ cinNetQ_fits [hexG.bare] [triG.bare] (by simp)
  (by simpa using ⟨(bare_usual hexG_ok).1, (bare_usual triG_ok).1⟩) 1
  (.cons ⟨rfl, 1, fun _ => 2, fun _ hy => List.eq_of_mem_replicate (n := 6) hy,
    fun _ hy => List.eq_of_mem_replicate (n := 6) hy, by
      intro d hd s hs hc _
      obtain rfl : d = 0 := by omega
      obtain ⟨v, rfl⟩ := Finset.card_eq_one.mp hc
      have : ∀ v ∈ Finset.range 6, (commonNeighbours hexG.edges 6 {v}).card = 2 := by decide +kernel
      exact this v (hs (Finset.mem_singleton_self v)), by
      intro d hd s hs hc _
      obtain rfl : d = 0 := by omega
      obtain ⟨v, rfl⟩ := Finset.card_eq_one.mp hc
      have : ∀ v ∈ Finset.range 6, (commonNeighbours triG.edges 6 {v}).card = 2 := by decide +kernel
      exact this v (hs (Finset.mem_singleton_self v))⟩ .nil)

example := C91_rings_of_three plainGudhi plainGudhi_ok plainRings plainRings_ok List.sum (fun _ _ h => h.sum_eq) true
  sparseNetQ sparseNetQ_fits ppNetQ ppNetQ_fits cinNetQ cinNetQ_fits [triG, hexG, rookG] (by simp)
  (by simpa using ⟨⟨triG_ok.1, rfl⟩, ⟨hexG_ok.1, rfl⟩, rookG_ok.1, rfl⟩) 2

end Examples

end Verif
